import Verif.Frames.Traces
import Verif.Koops.Normalize
/-!
# Model of the texts hashed for deduplication

SHA-1 is a parameter. `printf` conversions: `%s` appends the string, `%u` and `%d` the decimal digits, `%x` the
hexadecimal digits.
-/
namespace Satyr.Hash
open Satyr Satyr.CStr Satyr.Frames Satyr.Normalize Satyr.Threads Satyr.Koops

/-- `OR_UNKNOWN` (lib/internal_utils.h:59). -/
def orUnknown (s : Option Str) : Str := s.getD c!"<unknown>"

/-- `%d` applied to a `bool`. -/
def boolDec (b : Bool) : Str := if b then c!"1" else c!"0"

/-- `0x%x` -/
def hex0x (n : Nat) : Str := c!"0x" ++ natHex n

/-! ## Duplication hash -/

/-- `enum sr_duphash_flags` (include/thread.h:59-76). -/
structure DupFlags where
  nohash : Bool := false
  noNormalize : Bool := false
  koopsCompat : Bool := false

/-- `gdb_append_duphash_text` (lib/gdb_frame.c:1196-1212). -/
def gdbDup (f : GdbFrame) : Str :=
  c!" " ++ (match f.functionType with | some t => c!" " ++ t | none => []) ++
    (match f.functionName with | some t => c!" " ++ t | none => []) ++
    (if f.signalHandlerCalled then c!" <signal handler called>" else []) ++ c!"\n"

/-- `core_append_duphash_text` (lib/core_frame.c:366-388). -/
def coreDup (f : CoreFrame) : Str :=
  match f.buildId with
  | some b => b ++ c!"+" ++ hex0x f.buildIdOffset ++ c!"\n"
  | none => match f.functionName with
    | some n => c!"  " ++ n ++ c!"\n"
    | none => match f.fingerprint with
      | some p => p ++ c!"+" ++ hex0x f.buildIdOffset ++ c!"\n"
      | none => hex0x f.address ++ c!"\n"

/-- `koops_append_duphash_text` (lib/koops_frame.c:738-749). -/
def koopsDup (fl : DupFlags) (f : KoopsFrame) : Str :=
  if fl.koopsCompat && !f.reliable then []
  else match f.functionName with
    | some n => n ++ c!"\n"
    | none => hex0x f.address ++ c!"\n"

/-- `python_append_duphash_text` (lib/python_frame.c:520-527). -/
def pythonDup (f : PythonFrame) : Str := orUnknown f.fileName ++ c!":" ++ natDec f.fileLine ++ c!"\n"

/-- `java_append_duphash_text` (lib/java_frame.c:664-674). -/
def javaDup (f : JavaFrame) : Str :=
  match f.name with
  | some n => n ++ c!"\n"
  | none => orUnknown f.classPath ++ c!"/" ++ orUnknown f.fileName ++ c!":" ++ natDec f.fileLine ++ c!"\n"

/-- `ruby_append_duphash_text` (lib/ruby_frame.c:510-517). -/
def rubyDup (f : RubyFrame) : Str := orUnknown f.fileName ++ c!":" ++ natDec f.fileLine ++ c!"\n"

/-- `js_append_duphash_text` (lib/js_frame.c:493-500). -/
def jsDup (f : JsFrame) : Str := orUnknown f.fileName ++ c!":" ++ natDec f.fileLine ++ c!"\n"

/-- The frames of a thread of each type, through the generic interface (lib/generic_thread.c:125-134). -/
inductive Thread where
  | gdb (t : List (Node GdbFrame))
  | core (t : List (Node CoreFrame))
  | koops (t : List (Node KoopsFrame))
  | python (t : List (Node PythonFrame))
  | java (t : List (Node JavaFrame))
  | ruby (t : List (Node RubyFrame))
  | js (t : List (Node JsFrame))

/-- The nodes of the list are distinct. -/
def Thread.WF : Thread → Prop
  | .gdb t => Threads.WF t
  | .core t => Threads.WF t
  | .koops t => Threads.WF t
  | .python t => Threads.WF t
  | .java t => Threads.WF t
  | .ruby t => Threads.WF t
  | .js t => Threads.WF t

/-- `sr_thread_normalize` (lib/generic_thread.c:214-218) with the `normalize` members of the method tables. -/
def Thread.normalize : Thread → Out Thread
  | .gdb t => (normalizeGdb t).bind fun t => .ok (.gdb t)
  | .core t => (normalizeCore t).bind fun t => .ok (.core t)
  | .koops t => (normalizeKoops t).bind fun t => .ok (.koops t)
  | t => .ok t

/-- The loop over frames of `sr_thread_get_duphash` (lib/generic_thread.c:252-263). -/
def dupLoop {F : Type} (text : F → Str) : Int → List (Node F) → Str → Str
  | _, [], buf => buf
  | n, f :: rest, buf =>
    if n > 0 then
      let buf' := buf ++ text f.val
      dupLoop text (if buf'.length > buf.length then n - 1 else n) rest buf'
    else buf

/-- The loop with `frame_append_duphash_text` of the type of the thread. -/
def Thread.dupLoop (fl : DupFlags) (n : Int) (buf : Str) : Thread → Str
  | .gdb t => Hash.dupLoop gdbDup n t buf
  | .core t => Hash.dupLoop coreDup n t buf
  | .koops t => Hash.dupLoop (koopsDup fl) n t buf
  | .python t => Hash.dupLoop pythonDup n t buf
  | .java t => Hash.dupLoop javaDup n t buf
  | .ruby t => Hash.dupLoop rubyDup n t buf
  | .js t => Hash.dupLoop jsDup n t buf

/-- `sr_thread_get_duphash` after the optional normalization (lib/generic_thread.c:233-282). -/
def duphashOf (sha1 : Str → Str) (t : Thread) (nframes : Int) (pre : Option Str) (fl : DupFlags) : Out (Option Str) :=
  let buf := pre.getD [] ++ (if fl.koopsCompat then [] else c!"Thread\n")
  let n := if nframes = 0 then 2147483647 else nframes
  let buf := t.dupLoop fl n buf
  if fl.koopsCompat && buf.isEmpty then .ok none
  else if fl.nohash then .ok (some buf)
  else .ok (some (sha1 buf))

/-- `sr_thread_get_duphash` (lib/generic_thread.c:220-282). The copy made first is implicit: the argument is a value. -/
def duphash (sha1 : Str → Str) (t : Thread) (nframes : Int) (pre : Option Str) (fl : DupFlags) : Out (Option Str) :=
  (if fl.noNormalize then .ok t else t.normalize).bind fun t => duphashOf sha1 t nframes pre fl

/-! ## Backtrace hash -/

/-- A `printf` of fields separated by `", "` and ended by a newline. -/
def joinFields : List Str → Str
  | [] => c!"\n"
  | [a] => a ++ c!"\n"
  | a :: rest => a ++ c!", " ++ joinFields rest

/-- `gdb_append_bthash_text` (lib/gdb_frame.c:1180-1193): `"%s, %s, %u, %s, %u, %d, 0x%x, %s\n"`. -/
def gdbFrameBt (f : GdbFrame) : Str :=
  joinFields [orUnknown f.functionName, orUnknown f.functionType, natDec f.number, orUnknown f.sourceFile,
    natDec f.sourceLine, boolDec f.signalHandlerCalled, hex0x f.address, orUnknown f.libraryName]

/-- `core_append_bthash_text` (lib/core_frame.c:350-363): `"0x%x, "` or `"<unknown>, "`, then `"%s+0x%x, %s, %s\n"`. -/
def coreFrameBt (f : CoreFrame) : Str :=
  joinFields [if f.address ≠ 0 then hex0x f.address else c!"<unknown>",
    orUnknown f.buildId ++ c!"+" ++ hex0x f.buildIdOffset, orUnknown f.fileName, orUnknown f.fingerprint]

/-- `koops_append_bthash_text` (lib/koops_frame.c:718-735). -/
def koopsFrameBt (f : KoopsFrame) : Str :=
  joinFields [hex0x f.address, boolDec f.reliable, orUnknown f.functionName, hex0x f.functionOffset,
    hex0x f.functionLength, orUnknown f.moduleName, hex0x f.fromAddress, orUnknown f.fromFunctionName,
    hex0x f.fromFunctionOffset, hex0x f.fromFunctionLength, orUnknown f.fromModuleName]

/-- `python_append_bthash_text` (lib/python_frame.c:506-517). -/
def pythonFrameBt (f : PythonFrame) : Str :=
  joinFields [orUnknown f.fileName, boolDec f.specialFile, natDec f.fileLine, orUnknown f.functionName,
    boolDec f.specialFunction, orUnknown f.lineContents]

/-- `java_append_bthash_text` (lib/java_frame.c:649-661). -/
def javaFrameBt (f : JavaFrame) : Str :=
  joinFields [orUnknown f.name, orUnknown f.fileName, natDec f.fileLine, orUnknown f.classPath, boolDec f.isNative,
    boolDec f.isException, orUnknown f.message]

/-- `ruby_append_bthash_text` (lib/ruby_frame.c:496-507). -/
def rubyFrameBt (f : RubyFrame) : Str :=
  joinFields [orUnknown f.fileName, natDec f.fileLine, orUnknown f.functionName, boolDec f.specialFunction,
    natDec f.blockLevel, natDec f.rescueLevel]

/-- `js_append_bthash_text` (lib/js_frame.c:482-490). -/
def jsFrameBt (f : JsFrame) : Str := joinFields [orUnknown f.fileName, natDec f.fileLine, orUnknown f.functionName]

/-- The loops over threads and frames of `sr_stacktrace_get_bthash` (lib/generic_stacktrace.c:191-208); `head` is the text
of the thread structure. -/
def threadsBt {T F : Type} (head : T → Str) (frames : T → List F) (text : F → Str) : List T → Str
  | [] => []
  | [t] => head t ++ (frames t).flatMap text
  | t :: rest => head t ++ (frames t).flatMap text ++ c!"\n" ++ threadsBt head frames text rest

/-- The text of a library (lib/gdb_stacktrace.c:599-605). -/
def libBt (l : Sharedlib) : Str := natHex l.lo ++ c!"-" ++ natHex l.hi ++ c!", " ++ orUnknown l.soname ++ c!"\n"

/-- Hashed text of a GDB stack trace (lib/generic_stacktrace.c:181-208, lib/gdb_stacktrace.c:596-608,
lib/gdb_thread.c:584-588). -/
def gdbBt (s : GdbTrace) : Str :=
  s.libs.flatMap libBt ++ c!"\n" ++
    threadsBt (fun t : GdbThread => c!"Thread " ++ natDec t.number ++ c!"\n") GdbThread.frames gdbFrameBt s.threads

/-- Hashed text of a core stack trace (lib/core_stacktrace.c:390-396; threads have no text of their own). -/
def coreBt (s : CoreTrace) : Str :=
  c!"Executable: " ++ orUnknown s.executable ++ c!"\n" ++ (c!"Signal: " ++ natDec s.signal ++ c!"\n") ++ c!"\n" ++
    threadsBt (fun _ => []) CoreThread.frames coreFrameBt s.threads

/-- The list of modules (lib/koops_stacktrace.c:808-814). -/
def modulesBt : List Str → Str
  | [] => []
  | [m] => m
  | m :: rest => m ++ c!", " ++ modulesBt rest

/-- Hashed text of a kernel oops (lib/koops_stacktrace.c:794-818); the loop over taint flags appends nothing. The trace is
its own only thread. -/
def koopsBt (s : KoopsTrace) : Str :=
  c!"Version: " ++ orUnknown s.version ++ c!"\n" ++ c!"Flags: " ++ c!"\n" ++
    c!"Modules: " ++ (match s.modules with | some m => modulesBt m | none => []) ++ c!"\n" ++ c!"\n" ++
    threadsBt (fun _ => []) KoopsTrace.frames koopsFrameBt [s]

/-- Hashed text of a Python stack trace (lib/python_stacktrace.c:349-354). -/
def pythonBt (s : PythonTrace) : Str :=
  c!"Exception: " ++ orUnknown s.exceptionName ++ c!"\n" ++ c!"\n" ++
    threadsBt (fun _ => []) PythonTrace.frames pythonFrameBt [s]

/-- Hashed text of a Java stack trace (lib/java_stacktrace.c:35-39, lib/java_thread.c:455-459). -/
def javaBt (s : JavaTrace) : Str :=
  threadsBt (fun t : JavaThread => c!"Thread " ++ orUnknown t.name ++ c!"\n") JavaThread.frames javaFrameBt s.threads

/-- Hashed text of a Ruby stack trace (lib/ruby_stacktrace.c:385-390). -/
def rubyBt (s : RubyTrace) : Str :=
  c!"Exception: " ++ orUnknown s.exceptionName ++ c!"\n" ++ c!"\n" ++
    threadsBt (fun _ => []) RubyTrace.frames rubyFrameBt [s]

/-- Hashed text of a JavaScript stack trace (lib/js_stacktrace.c:374-379). -/
def jsBt (s : JsTrace) : Str :=
  c!"Error: " ++ orUnknown s.exceptionName ++ c!"\n" ++ c!"\n" ++
    threadsBt (fun _ => []) JsTrace.frames jsFrameBt [s]

/-- `sr_stacktrace_get_bthash` applied to the text (lib/generic_stacktrace.c:210-219). -/
def bthash (sha1 : Str → Str) (nohash : Bool) (text : Str) : Str := if nohash then text else sha1 text

end Satyr.Hash
