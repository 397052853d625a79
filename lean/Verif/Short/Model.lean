import Verif.Crash.Model
import Verif.Gdb.FunsModel
import Verif.Text.JavaModel
import Verif.Text.JsModel
/-!
# Model of short texts of stack traces

The printing of frames (`append_to_str`), the generic short text (lib/generic_stacktrace.c), and the texts of gdb stack traces
(lib/gdb_stacktrace.c, lib/gdb_thread.c). The counters of frames are unbounded here; they are `int` in the code.
-/
namespace Satyr.Short
open Satyr.CStr Satyr.Frames Satyr.Normalize Satyr.Threads

/-! ## Frames -/

/-- The part of a path after the last slash (`strrchr`, lib/core_frame.c:334-335). -/
def baseName (p : Str) : Str :=
  match strrchrI '/' p with
  | none => p
  | some i => p.drop (i + 1)

/-- `sr_core_frame_append_to_str` (lib/core_frame.c:328-347); `%s` of a null pointer is undefined. -/
def coreFrame (f : CoreFrame) : Out Str :=
  let file := match f.fileName with
    | some p => c!"[" ++ baseName p ++ c!"]"
    | none => []
  match f.functionName, f.buildId with
  | some n, _ => .ok (file ++ ' ' :: n)
  | none, some b => .ok (file ++ ' ' :: b ++ '+' :: natDec f.buildIdOffset)
  | none, none => .ub

/-- `sr_koops_frame_append_to_str` (lib/koops_frame.c:702-715). -/
def koopsFrame (f : KoopsFrame) : Str :=
  (match f.specialStack with
    | some s => '[' :: s ++ c!"] "
    | none => []) ++
  (if f.reliable then [] else c!"? ") ++ f.functionName.getD c!"??" ++
  match f.moduleName with
  | some m => c!" in " ++ m
  | none => []

/-- A name in angle brackets if it is special. -/
def bracketed (special : Bool) (name : Str) : Str := (if special then c!"<" else []) ++ name ++ if special then c!">" else []

/-- `sr_python_frame_append_to_str` (lib/python_frame.c:480-503). -/
def pythonFrame (f : PythonFrame) : Str :=
  (match f.fileName with
    | some p => '[' :: bracketed f.specialFile p ++ (if f.fileLine ≠ 0 then ':' :: natDec f.fileLine else []) ++ c!"]"
    | none => []) ++
  ' ' :: bracketed f.specialFunction (f.functionName.getD c!"??")

/-- The loop over the levels of `rescue` (lib/ruby_frame.c:465-468). -/
def rescueText : Nat → Str
  | 0 => []
  | n + 1 => c!"rescue in " ++ rescueText n

/-- `sr_ruby_frame_append_to_str` (lib/ruby_frame.c:461-493). -/
def rubyFrame (f : RubyFrame) : Str :=
  rescueText f.rescueLevel ++
  (if f.blockLevel = 1 then c!"block in "
    else if f.blockLevel > 1 then c!"block (" ++ natDec f.blockLevel ++ c!" levels) in " else []) ++
  bracketed f.specialFunction (f.functionName.getD c!"??") ++
  match f.fileName with
  | some p => c!" in " ++ p ++ if f.fileLine ≠ 0 then ':' :: natDec f.fileLine else []
  | none => []

/-! ## The generic short text -/

/-- The loop of `stacktrace_to_short_text` (lib/generic_stacktrace.c:63-72), after `i` frames. -/
def shortLoop {F : Type} (print : F → Out Str) (max : Int) : Nat → List F → Out Str
  | _, [] => .ok []
  | i, f :: fs => do
    let x ← print f
    let line := '#' :: natDec (i + 1) ++ ' ' :: x ++ c!"\n"
    if max ≠ 0 ∧ max ≤ (i + 1 : Nat) then .ok line else do
    let r ← shortLoop print max (i + 1) fs
    .ok (line ++ r)

/-- `stacktrace_to_short_text` (lib/generic_stacktrace.c:52-75) on the frames of the crash thread, if there is one. -/
def shortText {F : Type} (print : F → Out Str) (frames : Option (List F)) (max : Int) : Out (Option Str) :=
  match frames with
  | none => .ok none
  | some fs => do
    let t ← shortLoop print max 0 fs
    .ok (some t)

/-- The loop of `sr_core_stacktrace_find_crash_thread` (lib/core_stacktrace.c:152-159). -/
def findExitThread : Nat → List CoreThread → Option Nat
  | _, [] => none
  | i, t :: ts => if (findExit coreIsExit (Crash.nodes t.frames) none).isSome then some i else findExitThread (i + 1) ts

/-- `sr_core_stacktrace_find_crash_thread` (lib/core_stacktrace.c:137-162). -/
def coreCrashThread (t : CoreTrace) : Option Nat :=
  match t.crashThread with
  | some i => some i
  | none =>
    match t.threads with
    | [] => none
    | [_] => some 0
    | ts => findExitThread 0 ts

/-- The frames of the crash thread. -/
def coreFrames (t : CoreTrace) : Option (List CoreFrame) := (coreCrashThread t).map fun i => (t.threads.getD i {}).frames

/-- `sr_stacktrace_to_short_text` for core stack traces (lib/core_stacktrace.c:55). -/
def coreText (t : CoreTrace) (max : Int) : Out (Option Str) := shortText coreFrame (coreFrames t) max
/-- `sr_stacktrace_to_short_text` for kernel oopses (lib/koops_stacktrace.c:90). -/
def koopsText (t : KoopsTrace) (max : Int) : Out (Option Str) := shortText (fun f => .ok (koopsFrame f)) (some t.frames) max
/-- `sr_stacktrace_to_short_text` for Python (lib/python_stacktrace.c:66). -/
def pythonText (t : PythonTrace) (max : Int) : Out (Option Str) := shortText (fun f => .ok (pythonFrame f)) (some t.frames) max
/-- `sr_stacktrace_to_short_text` for Ruby (lib/ruby_stacktrace.c:65). -/
def rubyText (t : RubyTrace) (max : Int) : Out (Option Str) := shortText (fun f => .ok (rubyFrame f)) (some t.frames) max
/-- `sr_stacktrace_to_short_text` for JavaScript (lib/js_stacktrace.c:67). -/
def jsText (t : JsTrace) (max : Int) : Out (Option Str) := shortText Text.Js.printFrame (some t.frames) max
/-- `sr_stacktrace_to_short_text` for Java (lib/java_stacktrace.c:49): the crash thread is the first one
(lib/java_stacktrace.c:274-280). -/
def javaText (t : JavaTrace) (max : Int) : Out (Option Str) :=
  shortText (fun f => .ok (Text.Java.printFrame f)) (t.threads.head?.map JavaThread.frames) max

/-! ## gdb stack traces -/

/-- `sr_gdb_frame_append_to_str` (lib/gdb_frame.c:265-290). -/
def gdbFrame (verbose : Bool) (f : GdbFrame) : Str :=
  (if verbose then c!" #" ++ natDec f.number else c!" ") ++
  (match f.functionType with | some t => ' ' :: t | none => []) ++
  (match f.functionName with | some n => ' ' :: n | none => []) ++
  (if verbose then
    match f.sourceFile with
    | some p => (if f.functionName.isSome then c!" at" else []) ++ ' ' :: p ++
        if f.sourceLine ≠ 4294967295 then ':' :: natDec f.sourceLine else []
    | none => []
  else []) ++
  if f.signalHandlerCalled then c!" <signal handler called>" else []

/-- The loop over the frames (lib/gdb_thread.c:299-305). -/
def gdbFrames (verbose : Bool) : List GdbFrame → Str
  | [] => []
  | f :: fs => gdbFrame verbose f ++ '\n' :: gdbFrames verbose fs

/-- `sr_gdb_thread_append_to_str` (lib/gdb_thread.c:283-306). -/
def gdbThread (verbose : Bool) (t : GdbThread) : Str :=
  (if verbose then c!"Thread no. " ++ natDec t.number ++ c!" (" ++ natDec t.frames.length ++ c!" frames)\n" else c!"Thread\n") ++
  gdbFrames verbose t.frames

/-- The loop over the threads (lib/gdb_stacktrace.c:403-408). -/
def gdbThreads (verbose : Bool) : List GdbThread → Str
  | [] => []
  | t :: ts => gdbThread verbose t ++ gdbThreads verbose ts

/-- `sr_gdb_stacktrace_to_text` (lib/gdb_stacktrace.c:386-411). -/
def gdbTrace (verbose : Bool) (s : GdbTrace) : Str :=
  (if verbose then c!"Thread count: " ++ natDec s.threads.length ++ c!"\n" else []) ++
  (match s.crash with
    | some f => if verbose then c!"Crash frame: " ++ gdbFrame verbose f ++ c!"\n" else []
    | none => []) ++
  gdbThreads verbose s.threads

/-- The loop of `sr_gdb_thread_get_optimized` removing frames without a name (lib/gdb_thread.c:567-575). `rest` are the frames the
loop has still to visit. -/
def removeUnnamed : List (Node GdbFrame) → List (Node GdbFrame) → List (Node GdbFrame)
  | [], t => t
  | n :: rest, t => if n.val.functionName.isNone then removeUnnamed rest (removeFrame n.id t).2 else removeUnnamed rest t

/-- The names of the libraries, if there are libraries (lib/gdb_thread.c:561-562). -/
def withLibs (libs : List Sharedlib) (fs : List GdbFrame) : Out (List GdbFrame) :=
  if libs = [] then .ok fs else Gdb.setLibnames libs fs

/-- The limit on the number of frames (lib/gdb_thread.c:576-577). -/
def limit (max : Int) (t : List (Node GdbFrame)) : Out (List (Node GdbFrame)) := if max > 0 then removeFramesBelow max t else .ok t

/-- `sr_gdb_thread_get_optimized` (lib/gdb_thread.c:556-581). The duplicate the function works on is the value. -/
def getOptimized (libs : List Sharedlib) (max : Int) (t : GdbThread) : Out GdbThread := do
  let fs ← withLibs libs t.frames
  let r ← normalizeGdb (Crash.nodes fs)
  let r := removeMain r r
  let r := removeUnnamed r r
  let r ← limit max r
  .ok { t with frames := r.map Node.val }

/-- `sr_gdb_stacktrace_to_short_text` (lib/gdb_stacktrace.c:574-593). -/
def gdbText (s : GdbTrace) (max : Int) : Out (Option Str) :=
  match Crash.findCrashThread s with
  | none => .ok none
  | some i => do
    let t ← getOptimized s.libs max (s.threads.getD i {})
    .ok (some (gdbThread true t))

/-- `sr_gdb_stacktrace_get_crash_frame` (lib/gdb_stacktrace.c:413-432). -/
def crashFrame (s : GdbTrace) : Out (Option GdbFrame) :=
  match Crash.findCrashThread s with
  | none => .ok none
  | some i => do
    let n ← Crash.normalizeTrace s
    .ok ((n.threads.getD i {}).frames.head?)

end Satyr.Short
