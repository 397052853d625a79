import Verif.Report.Model
import Verif.Short.Model
import Verif.Hash.Model
import Verif.Frames.ThreadCmp
import Verif.Gdb.TraceModel
import Verif.Text.JavaModel
import Verif.Text.PythonModel
import Verif.Text.RubyModel
import Verif.Text.JsModel
import Verif.Text.KoopsModel
import Verif.Json.CoreModel
import Verif.Json.ScriptModel
/-!
# Model of the interface for stack traces, threads and frames of any type

lib/generic_stacktrace.c, lib/generic_thread.c and lib/generic_frame.c choose the function of the type of the object from tables
of methods. An object passed to a function of another type is undefined behaviour here (the cast of the pointer). The functions
that free objects are in `Verif.Heap`, and those that remove frames in `Verif.Threads`.
-/
namespace Satyr.Generic
open Satyr.CStr Satyr.Frames Satyr.Normalize Satyr.Threads Satyr.Report Satyr.Hash

/-- `DISPATCH` (lib/internal_utils.h:37-39): the type is asserted to be one of a stack trace, and the method to be there. The
tables have an entry for each of the types (lib/generic_stacktrace.c:34-43, lib/generic_thread.c:125-134,
lib/generic_frame.c:30-39). -/
def dispatch {M A : Type} (table : ReportType → M) (type : Int) (method : M → Option A) : Out A :=
  if 0 < type ∧ type < 8 then
    match method (table (ReportType.ofCode type)) with
    | some f => .ok f
    | none => .abort
  else .abort

/-! ## Frames -/

/-- `struct sr_frame *`, not NULL: a frame and those after it. -/
inductive Frame where
  | core (f : CoreFrame) (next : List CoreFrame)
  | python (f : PythonFrame) (next : List PythonFrame)
  | koops (f : KoopsFrame) (next : List KoopsFrame)
  | java (f : JavaFrame) (next : List JavaFrame)
  | gdb (f : GdbFrame) (next : List GdbFrame)
  | ruby (f : RubyFrame) (next : List RubyFrame)
  | js (f : JsFrame) (next : List JsFrame)
  deriving DecidableEq

/-- The member `type` (include/frame.h:49-52). -/
def Frame.type : Frame → ReportType
  | .core _ _ => .core
  | .python _ _ => .python
  | .koops _ _ => .kerneloops
  | .java _ _ => .java
  | .gdb _ _ => .gdb
  | .ruby _ _ => .ruby
  | .js _ _ => .javascript

/-- The pointer to the first frame of a list; NULL if there is none. -/
def first {F : Type} (mk : F → List F → Frame) : List F → Option Frame
  | [] => none
  | f :: l => some (mk f l)

/-- `struct frame_methods` (lib/generic_frame.h:38-48) without `set_next` and `frame_free`. -/
structure FrameMethods where
  appendToStr : Option (Frame → Out Str)
  next : Option (Frame → Out (Option Frame))
  cmp : Option (Frame → Frame → Out Int)
  cmpDistance : Option (Frame → Frame → Out Int)
  bthash : Option (Frame → Out Str)
  duphash : Option (DupFlags → Frame → Out Str)

/-- `core_frame_methods` (lib/core_frame.c:43-55). -/
def coreFrameMethods : FrameMethods where
  appendToStr := some fun | .core f _ => Short.coreFrame f | _ => .ub
  next := some fun | .core _ l => .ok (first .core l) | _ => .ub
  cmp := some fun | .core f _, .core g _ => .ok (coreCmp f g) | _, _ => .ub
  cmpDistance := some fun | .core f _, .core g _ => .ok (coreCmpDistance f g) | _, _ => .ub
  bthash := some fun | .core f _ => .ok (coreFrameBt f) | _ => .ub
  duphash := some fun _ => fun | .core f _ => .ok (coreDup f) | _ => .ub

/-- `python_frame_methods` (lib/python_frame.c:43-55). -/
def pythonFrameMethods : FrameMethods where
  appendToStr := some fun | .python f _ => .ok (Short.pythonFrame f) | _ => .ub
  next := some fun | .python _ l => .ok (first .python l) | _ => .ub
  cmp := some fun | .python f _, .python g _ => .ok (pythonCmp f g) | _, _ => .ub
  cmpDistance := some fun | .python f _, .python g _ => .ok (pythonCmpDistance f g) | _, _ => .ub
  bthash := some fun | .python f _ => .ok (pythonFrameBt f) | _ => .ub
  duphash := some fun _ => fun | .python f _ => .ok (pythonDup f) | _ => .ub

/-- `koops_frame_methods` (lib/koops_frame.c:44-56). -/
def koopsFrameMethods : FrameMethods where
  appendToStr := some fun | .koops f _ => .ok (Short.koopsFrame f) | _ => .ub
  next := some fun | .koops _ l => .ok (first .koops l) | _ => .ub
  cmp := some fun | .koops f _, .koops g _ => .ok (koopsCmp f g) | _, _ => .ub
  cmpDistance := some fun | .koops f _, .koops g _ => .ok (koopsCmpDistance f g) | _, _ => .ub
  bthash := some fun | .koops f _ => .ok (koopsFrameBt f) | _ => .ub
  duphash := some fun fl => fun | .koops f _ => .ok (koopsDup fl f) | _ => .ub

/-- `java_frame_methods` (lib/java_frame.c:48-60). -/
def javaFrameMethods : FrameMethods where
  appendToStr := some fun | .java f _ => .ok (Text.Java.printFrame f) | _ => .ub
  next := some fun | .java _ l => .ok (first .java l) | _ => .ub
  cmp := some fun | .java f _, .java g _ => .ok (javaCmp f g) | _, _ => .ub
  cmpDistance := some fun | .java f _, .java g _ => .ok (javaCmpDistance f g) | _, _ => .ub
  bthash := some fun | .java f _ => .ok (javaFrameBt f) | _ => .ub
  duphash := some fun _ => fun | .java f _ => .ok (javaDup f) | _ => .ub

/-- `gdb_frame_methods` (lib/gdb_frame.c:51-63). `sr_gdb_frame_append_to_str` has three parameters (lib/gdb_frame.c:265-268), but the
table has it as a function with two (lib/generic_frame.h:28): calling it is undefined. The comparison leaves out the number
(lib/gdb_frame.c:56). -/
def gdbFrameMethods : FrameMethods where
  appendToStr := some fun _ => .ub
  next := some fun | .gdb _ l => .ok (first .gdb l) | _ => .ub
  cmp := some fun | .gdb f _, .gdb g _ => .ok (gdbCmp false f g) | _, _ => .ub
  cmpDistance := some fun | .gdb f _, .gdb g _ => .ok (gdbCmpDistance f g) | _, _ => .ub
  bthash := some fun | .gdb f _ => .ok (gdbFrameBt f) | _ => .ub
  duphash := some fun _ => fun | .gdb f _ => .ok (gdbDup f) | _ => .ub

/-- `ruby_frame_methods` (lib/ruby_frame.c:44-56). -/
def rubyFrameMethods : FrameMethods where
  appendToStr := some fun | .ruby f _ => .ok (Short.rubyFrame f) | _ => .ub
  next := some fun | .ruby _ l => .ok (first .ruby l) | _ => .ub
  cmp := some fun | .ruby f _, .ruby g _ => .ok (rubyCmp f g) | _, _ => .ub
  cmpDistance := some fun | .ruby f _, .ruby g _ => .ok (rubyCmpDistance f g) | _, _ => .ub
  bthash := some fun | .ruby f _ => .ok (rubyFrameBt f) | _ => .ub
  duphash := some fun _ => fun | .ruby f _ => .ok (rubyDup f) | _ => .ub

/-- `js_frame_methods` (lib/js_frame.c:44-56). -/
def jsFrameMethods : FrameMethods where
  appendToStr := some fun | .js f _ => Text.Js.printFrame f | _ => .ub
  next := some fun | .js _ l => .ok (first .js l) | _ => .ub
  cmp := some fun | .js f _, .js g _ => .ok (jsCmp f g) | _, _ => .ub
  cmpDistance := some fun | .js f _, .js g _ => .ok (jsCmpDistance f g) | _, _ => .ub
  bthash := some fun | .js f _ => .ok (jsFrameBt f) | _ => .ub
  duphash := some fun _ => fun | .js f _ => .ok (jsDup f) | _ => .ub

/-- The table (lib/generic_frame.c:30-39); there is no entry for `SR_REPORT_INVALID`, which is never looked up. -/
def frameTable : ReportType → FrameMethods
  | .core => coreFrameMethods
  | .python => pythonFrameMethods
  | .kerneloops => koopsFrameMethods
  | .java => javaFrameMethods
  | .gdb => gdbFrameMethods
  | .ruby => rubyFrameMethods
  | .javascript => jsFrameMethods
  | .invalid => ⟨none, none, none, none, none, none⟩

/-- `sr_frame_append_to_str` (lib/generic_frame.c:41-45): what is appended. -/
def Frame.appendToStr (f : Frame) : Out Str := do (← dispatch frameTable f.type.code (·.appendToStr)) f

/-- `sr_frame_next` (lib/generic_frame.c:47-51). -/
def Frame.next (f : Frame) : Out (Option Frame) := do (← dispatch frameTable f.type.code (·.next)) f

/-- `sr_frame_cmp` (lib/generic_frame.c:60-67). -/
def Frame.cmp (f g : Frame) : Out Int :=
  if f.type.code ≠ g.type.code then .ok (f.type.code - g.type.code) else do
  (← dispatch frameTable f.type.code (·.cmp)) f g

/-- `sr_frame_cmp_distance` (lib/generic_frame.c:69-76). -/
def Frame.cmpDistance (f g : Frame) : Out Int :=
  if f.type.code ≠ g.type.code then .ok (f.type.code - g.type.code) else do
  (← dispatch frameTable f.type.code (·.cmpDistance)) f g

/-- `frame_append_bthash_text` (lib/generic_frame.c:78-84). -/
def Frame.bthash (f : Frame) : Out Str := do (← dispatch frameTable f.type.code (·.bthash)) f

/-- `frame_append_duphash_text` (lib/generic_frame.c:86-92). -/
def Frame.duphash (fl : DupFlags) (f : Frame) : Out Str := do (← dispatch frameTable f.type.code (·.duphash)) fl f

/-- The number of frames from this one on. -/
def Frame.size : Frame → Nat
  | .core _ l => l.length + 1
  | .python _ l => l.length + 1
  | .koops _ l => l.length + 1
  | .java _ l => l.length + 1
  | .gdb _ l => l.length + 1
  | .ruby _ l => l.length + 1
  | .js _ l => l.length + 1

/-- The fuel for a loop over the frames. -/
def fuel : Option Frame → Nat
  | none => 1
  | some f => f.size + 1

/-! ## Threads -/

/-- `struct sr_thread *`, not NULL: a thread and those after it. Stack traces of the types with one thread are threads. -/
inductive Thread where
  | core (t : CoreThread) (next : List CoreThread)
  | python (t : PythonTrace)
  | koops (t : KoopsTrace)
  | java (t : JavaThread) (next : List JavaThread)
  | gdb (t : GdbThread) (next : List GdbThread)
  | ruby (t : RubyTrace)
  | js (t : JsTrace)
  deriving DecidableEq

/-- The member `type` (include/thread.h:51-54). -/
def Thread.type : Thread → ReportType
  | .core _ _ => .core
  | .python _ => .python
  | .koops _ => .kerneloops
  | .java _ _ => .java
  | .gdb _ _ => .gdb
  | .ruby _ => .ruby
  | .js _ => .javascript

/-- The pointer to the first thread of a list; NULL if there is none. -/
def firstThread {T : Type} (mk : T → List T → Thread) : List T → Option Thread
  | [] => none
  | t :: l => some (mk t l)

/-- `struct thread_methods` (lib/generic_thread.h:42-56) without `thread_free`, `remove_frame` and `remove_frames_above`. A function
that changes the thread returns the new one. The argument of `set_frames` and `set_next` may be NULL. -/
structure ThreadMethods where
  frames : Option (Thread → Out (Option Frame))
  setFrames : Option (Thread → Option Frame → Out Thread)
  cmp : Option (Thread → Thread → Out Int)
  frameCount : Option (Thread → Out Nat)
  next : Option (Thread → Out (Option Thread))
  setNext : Option (Thread → Option Thread → Out Thread)
  bthash : Option (Thread → Out Str)
  normalize : Option (Thread → Out Thread)
  dup : Option (Thread → Out Thread)

/-- The `frames` members of the tables: getters (lib/generic_thread.h:62-64). -/
def framesOf : Thread → Option Frame
  | .core t _ => first .core t.frames
  | .python t => first .python t.frames
  | .koops t => first .koops t.frames
  | .java t _ => first .java t.frames
  | .gdb t _ => first .gdb t.frames
  | .ruby t => first .ruby t.frames
  | .js t => first .js t.frames

/-- A getter of one type. -/
def getFrames (type : ReportType) (t : Thread) : Out (Option Frame) := if t.type = type then .ok (framesOf t) else .ub

/-- The setters (lib/generic_thread.h:66-67); frames of another type are asserted not to be passed. -/
def setFramesOf : Thread → Option Frame → Out Thread
  | .core t l, none => .ok (.core { t with frames := [] } l)
  | .core t l, some (.core f fs) => .ok (.core { t with frames := f :: fs } l)
  | .python t, none => .ok (.python { t with frames := [] })
  | .python t, some (.python f fs) => .ok (.python { t with frames := f :: fs })
  | .koops t, none => .ok (.koops { t with frames := [] })
  | .koops t, some (.koops f fs) => .ok (.koops { t with frames := f :: fs })
  | .java t l, none => .ok (.java { t with frames := [] } l)
  | .java t l, some (.java f fs) => .ok (.java { t with frames := f :: fs } l)
  | .gdb t l, none => .ok (.gdb { t with frames := [] } l)
  | .gdb t l, some (.gdb f fs) => .ok (.gdb { t with frames := f :: fs } l)
  | .ruby t, none => .ok (.ruby { t with frames := [] })
  | .ruby t, some (.ruby f fs) => .ok (.ruby { t with frames := f :: fs })
  | .js t, none => .ok (.js { t with frames := [] })
  | .js t, some (.js f fs) => .ok (.js { t with frames := f :: fs })
  | _, _ => .ub

/-- A setter of one type. -/
def setFramesAs (type : ReportType) (t : Thread) (f : Option Frame) : Out Thread := if t.type = type then setFramesOf t f else .ub

/-- The frames after a normalization. -/
def normalized {F : Type} (norm : List (Node F) → Out (List (Node F))) (fs : List F) : Out (List F) := do
  let r ← norm (Crash.nodes fs)
  .ok (r.map Node.val)

/-- The loop of `thread_frame_count` (lib/generic_thread.c:40-44). -/
def countLoop : Nat → Option Frame → Out Nat
  | 0, _ => .ub
  | _ + 1, none => .ok 0
  | n + 1, some f => do
    let g ← f.next
    let r ← countLoop n g
    .ok (r + 1)

/-- `thread_frame_count` (lib/generic_thread.c:35-47), with the getter `sr_thread_frames` as an argument; the counter is an `int` in
the code. -/
def frameCountOf (frames : Thread → Out (Option Frame)) (t : Thread) : Out Nat := do
  let f ← frames t
  countLoop (fuel f) f

/-- `core_thread_methods` (lib/core_thread.c:38-54). Duplicates have no next thread (lib/generic_thread.h:69-75). -/
def coreThreadMethods : ThreadMethods where
  frames := some (getFrames .core)
  setFrames := some (setFramesAs .core)
  cmp := some fun | .core t _, .core u _ => .ok (coreThreadCmp t u) | _, _ => .ub
  frameCount := some (frameCountOf (getFrames .core))
  next := some fun | .core _ l => .ok (firstThread .core l) | _ => .ub
  setNext := some fun
    | .core t _, none => .ok (.core t [])
    | .core t _, some (.core u l) => .ok (.core t (u :: l))
    | _, _ => .ub
  bthash := some fun | .core _ _ => .ok [] | _ => .ub
  normalize := some fun
    | .core t l => do
      let fs ← normalized normalizeCore t.frames
      .ok (.core { t with frames := fs } l)
    | _ => .ub
  dup := some fun | .core t _ => .ok (.core t []) | _ => .ub

/-- `python_thread_methods` (lib/python_stacktrace.c:44-60). -/
def pythonThreadMethods : ThreadMethods where
  frames := some (getFrames .python)
  setFrames := some (setFramesAs .python)
  cmp := none
  frameCount := some (frameCountOf (getFrames .python))
  next := some fun _ => .ok none
  setNext := none
  bthash := some fun _ => .ok []
  normalize := some fun t => .ok t
  dup := some fun | .python t => .ok (.python t) | _ => .ub

/-- `koops_thread_methods` (lib/koops_stacktrace.c:69-84). -/
def koopsThreadMethods : ThreadMethods where
  frames := some (getFrames .kerneloops)
  setFrames := some (setFramesAs .kerneloops)
  cmp := none
  frameCount := some (frameCountOf (getFrames .kerneloops))
  next := some fun _ => .ok none
  setNext := none
  bthash := some fun _ => .ok []
  normalize := some fun
    | .koops t => do
      let fs ← normalized Koops.normalizeKoops t.frames
      .ok (.koops { t with frames := fs })
    | _ => .ub
  dup := some fun | .koops t => .ok (.koops t) | _ => .ub

/-- `java_thread_methods` (lib/java_thread.c:45-61). -/
def javaThreadMethods : ThreadMethods where
  frames := some (getFrames .java)
  setFrames := some (setFramesAs .java)
  cmp := some fun | .java t _, .java u _ => .ok (javaThreadCmp t u) | _, _ => .ub
  frameCount := some (frameCountOf (getFrames .java))
  next := some fun | .java _ l => .ok (firstThread .java l) | _ => .ub
  setNext := some fun
    | .java t _, none => .ok (.java t [])
    | .java t _, some (.java u l) => .ok (.java t (u :: l))
    | _, _ => .ub
  bthash := some fun | .java t _ => .ok (c!"Thread " ++ orUnknown t.name ++ c!"\n") | _ => .ub
  normalize := some fun t => .ok t
  dup := some fun | .java t _ => .ok (.java t []) | _ => .ub

/-- `gdb_thread_methods` (lib/gdb_thread.c:45-61). -/
def gdbThreadMethods : ThreadMethods where
  frames := some (getFrames .gdb)
  setFrames := some (setFramesAs .gdb)
  cmp := some fun | .gdb t _, .gdb u _ => .ok (gdbThreadCmp t u) | _, _ => .ub
  frameCount := some (frameCountOf (getFrames .gdb))
  next := some fun | .gdb _ l => .ok (firstThread .gdb l) | _ => .ub
  setNext := some fun
    | .gdb t _, none => .ok (.gdb t [])
    | .gdb t _, some (.gdb u l) => .ok (.gdb t (u :: l))
    | _, _ => .ub
  bthash := some fun | .gdb t _ => .ok (c!"Thread " ++ natDec t.number ++ c!"\n") | _ => .ub
  normalize := some fun
    | .gdb t l => do
      let fs ← normalized normalizeGdb t.frames
      .ok (.gdb { t with frames := fs } l)
    | _ => .ub
  dup := some fun | .gdb t _ => .ok (.gdb t []) | _ => .ub

/-- `ruby_thread_methods` (lib/ruby_stacktrace.c:43-59). -/
def rubyThreadMethods : ThreadMethods where
  frames := some (getFrames .ruby)
  setFrames := some (setFramesAs .ruby)
  cmp := none
  frameCount := some (frameCountOf (getFrames .ruby))
  next := some fun _ => .ok none
  setNext := none
  bthash := some fun _ => .ok []
  normalize := some fun t => .ok t
  dup := some fun | .ruby t => .ok (.ruby t) | _ => .ub

/-- `js_thread_methods` (lib/js_stacktrace.c:45-61). -/
def jsThreadMethods : ThreadMethods where
  frames := some (getFrames .javascript)
  setFrames := some (setFramesAs .javascript)
  cmp := none
  frameCount := some (frameCountOf (getFrames .javascript))
  next := some fun _ => .ok none
  setNext := none
  bthash := some fun _ => .ok []
  normalize := some fun t => .ok t
  dup := some fun | .js t => .ok (.js t) | _ => .ub

/-- The table (lib/generic_thread.c:125-134). -/
def threadTable : ReportType → ThreadMethods
  | .core => coreThreadMethods
  | .python => pythonThreadMethods
  | .kerneloops => koopsThreadMethods
  | .java => javaThreadMethods
  | .gdb => gdbThreadMethods
  | .ruby => rubyThreadMethods
  | .javascript => jsThreadMethods
  | .invalid => ⟨none, none, none, none, none, none, none, none, none⟩

/-- `sr_thread_frames` (lib/generic_thread.c:136-140). -/
def Thread.frames (t : Thread) : Out (Option Frame) := do (← dispatch threadTable t.type.code (·.frames)) t

/-- `sr_thread_set_frames` (lib/generic_thread.c:142-147). -/
def Thread.setFrames (t : Thread) (f : Option Frame) : Out Thread :=
  if f = none ∨ f.map Frame.type = some t.type then do (← dispatch threadTable t.type.code (·.setFrames)) t f else .abort

/-- `sr_thread_frame_count` (lib/generic_thread.c:149-153). -/
def Thread.frameCount (t : Thread) : Out Nat := do (← dispatch threadTable t.type.code (·.frameCount)) t

/-- `sr_thread_cmp` (lib/generic_thread.c:155-162). -/
def Thread.cmp (t u : Thread) : Out Int :=
  if t.type.code ≠ u.type.code then .ok (t.type.code - u.type.code) else do
  (← dispatch threadTable t.type.code (·.cmp)) t u

/-- `sr_thread_next` (lib/generic_thread.c:164-168). -/
def Thread.next (t : Thread) : Out (Option Thread) := do (← dispatch threadTable t.type.code (·.next)) t

/-- `sr_thread_set_next` (lib/generic_thread.c:170-175). -/
def Thread.setNext (t : Thread) (u : Option Thread) : Out Thread :=
  if u = none ∨ u.map Thread.type = some t.type then do (← dispatch threadTable t.type.code (·.setNext)) t u else .abort

/-- `thread_append_bthash_text` (lib/generic_thread.c:177-183). -/
def Thread.bthash (t : Thread) : Out Str := do (← dispatch threadTable t.type.code (·.bthash)) t

/-- `sr_thread_dup` (lib/generic_thread.c:208-212). -/
def Thread.dup (t : Thread) : Out Thread := do (← dispatch threadTable t.type.code (·.dup)) t

/-- `sr_thread_normalize` (lib/generic_thread.c:214-218). -/
def Thread.normalize (t : Thread) : Out Thread := do (← dispatch threadTable t.type.code (·.normalize)) t

/-- The number of threads from this one on. -/
def Thread.size : Thread → Nat
  | .core _ l => l.length + 1
  | .java _ l => l.length + 1
  | .gdb _ l => l.length + 1
  | _ => 1

/-- The loop over frames of `sr_thread_get_duphash` (lib/generic_thread.c:252-263). -/
def dupLoop (fl : DupFlags) : Nat → Int → Option Frame → Str → Out Str
  | 0, _, _, _ => .ub
  | _ + 1, _, none, buf => .ok buf
  | k + 1, n, some f, buf =>
    if n > 0 then do
      let x ← f.duphash fl
      let g ← f.next
      let buf' := buf ++ x
      dupLoop fl k (if buf'.length > buf.length then n - 1 else n) g buf'
    else .ok buf

/-- `sr_thread_get_duphash` (lib/generic_thread.c:220-282). -/
def Thread.duphash (sha1 : Str → Str) (t : Thread) (nframes : Int) (pre : Option Str) (fl : DupFlags) : Out (Option Str) := do
  let t ← t.dup
  let t ← if fl.noNormalize then .ok t else t.normalize
  let buf := pre.getD [] ++ (if fl.koopsCompat then [] else c!"Thread\n")
  let n := if nframes = 0 then 2147483647 else nframes
  let f ← t.frames
  let buf ← dupLoop fl (fuel f) n f buf
  if fl.koopsCompat && buf.isEmpty then .ok none
  else if fl.nohash then .ok (some buf)
  else .ok (some (sha1 buf))

/-! ## Stack traces -/

/-- The member `type` (include/stacktrace.h:49-52). -/
def typeOf : Stacktrace → ReportType
  | .core _ => .core
  | .python _ => .python
  | .koops _ => .kerneloops
  | .java _ => .java
  | .gdb _ => .gdb
  | .ruby _ => .ruby
  | .js _ => .javascript

/-- `struct stacktrace_methods` (lib/generic_stacktrace.h:39-52) without `stacktrace_free`. `parse` contains `parse_location`, which
`stacktrace_parse_wrapper` calls (lib/generic_stacktrace.c:78-93); the message is left out. NULL is `none`. -/
structure TraceMethods where
  parse : Option (Str → Out (Option Stacktrace))
  toShortText : Option (Stacktrace → Int → Out (Option Str))
  toJson : Option (Stacktrace → Out (Option Str))
  fromJson : Option (Json.Value → Out (Option Stacktrace))
  getReason : Option (Stacktrace → Out (Option Str))
  findCrashThread : Option (Stacktrace → Out (Option Thread))
  threads : Option (Stacktrace → Out (Option Thread))
  setThreads : Option (Stacktrace → Option Thread → Out Stacktrace)
  bthash : Option (Stacktrace → Out Str)

/-- What a parser returns. -/
def parsed {A : Type} (mk : A → Stacktrace) (r : Out (Option (A × Str))) : Out (Option Stacktrace) := do
  let x ← r
  .ok (x.map fun p => mk p.1)

/-- The stack trace as a thread (`stacktrace_one_thread_only`, lib/generic_stacktrace.c:45-50): the cast of a pointer of one of the
types whose stack traces are threads. -/
def oneThread : Stacktrace → Out (Option Thread)
  | .python t => .ok (some (.python t))
  | .koops t => .ok (some (.koops t))
  | .ruby t => .ok (some (.ruby t))
  | .js t => .ok (some (.js t))
  | _ => .ub

/-- The thread at a position. -/
def threadAt {T : Type} (mk : T → List T → Thread) (l : List T) : Option Nat → Option Thread
  | none => none
  | some i => firstThread mk (l.drop i)

/-- The crash thread of core stack traces. A pointer to a thread outside the list is undefined here. -/
def coreCrash (t : CoreTrace) : Out (Option Thread) :=
  match Short.coreCrashThread t with
  | none => .ok none
  | some i => if i < t.threads.length then .ok (threadAt .core t.threads (some i)) else .ub

/-- The loop of `stacktrace_to_short_text` (lib/generic_stacktrace.c:63-72), after `i` frames. -/
def shortLoop (max : Int) : Nat → Nat → Option Frame → Out Str
  | 0, _, _ => .ub
  | _ + 1, _, none => .ok []
  | k + 1, i, some f => do
    let x ← f.appendToStr
    let line := '#' :: natDec (i + 1) ++ ' ' :: x ++ c!"\n"
    if max ≠ 0 ∧ max ≤ (i + 1 : Nat) then .ok line else do
    let g ← f.next
    let r ← shortLoop max k (i + 1) g
    .ok (line ++ r)

/-- `stacktrace_to_short_text` (lib/generic_stacktrace.c:52-75) with `sr_stacktrace_find_crash_thread` as an argument. -/
def shortTextOf (find : Stacktrace → Out (Option Thread)) (t : Stacktrace) (max : Int) : Out (Option Str) := do
  match ← find t with
  | none => .ok none
  | some th =>
    let f ← th.frames
    let s ← shortLoop max (fuel f) 0 f
    .ok (some s)

/-- A method of one type. -/
def only {A : Type} (type : ReportType) (f : Stacktrace → Out A) (t : Stacktrace) : Out A := if typeOf t = type then f t else .ub

/-- `core_stacktrace_methods` (lib/core_stacktrace.c:50-66). The text parsed is JSON. A new list of threads in a stack trace with a
crash thread is undefined here: the pointer to the crash thread stays what it was (lib/generic_stacktrace.h:62-63). -/
def coreMethods : TraceMethods where
  parse := some fun s => .ok (((Json.parse s).bind Json.Core.fromJson).map .core)
  toShortText := some (shortTextOf fun | .core t => coreCrash t | _ => .ub)
  toJson := some (only .core fun t => .ok (traceToJson t))
  fromJson := some fun j => .ok ((Json.Core.fromJson j).map .core)
  getReason := some (only .core traceReason)
  findCrashThread := some fun | .core t => coreCrash t | _ => .ub
  threads := some fun | .core t => .ok (firstThread .core t.threads) | _ => .ub
  setThreads := some fun
    | .core t, none => if t.crashThread = none then .ok (.core { t with threads := [] }) else .ub
    | .core t, some (.core u l) => if t.crashThread = none then .ok (.core { t with threads := u :: l }) else .ub
    | _, _ => .ub
  bthash := some fun
    | .core t => .ok (c!"Executable: " ++ orUnknown t.executable ++ c!"\n" ++ (c!"Signal: " ++ natDec t.signal ++ c!"\n") ++ c!"\n")
    | _ => .ub

/-- `python_stacktrace_methods` (lib/python_stacktrace.c:62-76). -/
def pythonMethods : TraceMethods where
  parse := some fun s => parsed .python (Text.Python.parse s)
  toShortText := some (shortTextOf oneThread)
  toJson := some (only .python fun t => .ok (traceToJson t))
  fromJson := some fun j => .ok ((Json.Python.fromJson j).map .python)
  getReason := some (only .python traceReason)
  findCrashThread := some oneThread
  threads := some oneThread
  setThreads := none
  bthash := some fun | .python t => .ok (c!"Exception: " ++ orUnknown t.exceptionName ++ c!"\n" ++ c!"\n") | _ => .ub

/-- `koops_stacktrace_methods` (lib/koops_stacktrace.c:86-100). -/
def koopsMethods : TraceMethods where
  parse := some fun s => do
    let r ← Text.Koops.parseTrace s
    .ok (some (.koops r.1))
  toShortText := some (shortTextOf oneThread)
  toJson := some (only .kerneloops fun t => .ok (traceToJson t))
  fromJson := some fun j => do
    let r ← Json.Koops.fromJson j
    .ok (r.map .koops)
  getReason := some (only .kerneloops traceReason)
  findCrashThread := some oneThread
  threads := some oneThread
  setThreads := none
  bthash := some fun
    | .koops t => .ok (c!"Version: " ++ orUnknown t.version ++ c!"\n" ++ c!"Flags: " ++ c!"\n" ++
        c!"Modules: " ++ (match t.modules with | some m => modulesBt m | none => []) ++ c!"\n" ++ c!"\n")
    | _ => .ub

/-- `java_stacktrace_methods` (lib/java_stacktrace.c:45-60). -/
def javaMethods : TraceMethods where
  parse := some fun s => parsed (fun t => .java ⟨[t]⟩) (Text.Java.parseThread s)
  toShortText := some (shortTextOf fun | .java t => .ok (firstThread .java t.threads) | _ => .ub)
  toJson := some (only .java fun t => .ok (traceToJson t))
  fromJson := some fun j => .ok ((Json.Java.fromJson j).map .java)
  getReason := some (only .java traceReason)
  findCrashThread := some fun | .java t => .ok (firstThread .java t.threads) | _ => .ub
  threads := some fun | .java t => .ok (firstThread .java t.threads) | _ => .ub
  setThreads := some fun
    | .java t, none => .ok (.java { t with threads := [] })
    | .java t, some (.java u l) => .ok (.java { t with threads := u :: l })
    | _, _ => .ub
  bthash := some fun | .java _ => .ok [] | _ => .ub

/-- `gdb_stacktrace_methods` (lib/gdb_stacktrace.c:59-74). -/
def gdbMethods : TraceMethods where
  parse := some fun s => parsed .gdb (Gdb.parseTrace s)
  toShortText := some fun | .gdb t, max => Short.gdbText t max | _, _ => .ub
  toJson := some fun _ => .ok none
  fromJson := some fun _ => .ok none
  getReason := some fun _ => .ok none
  findCrashThread := some fun | .gdb t => .ok (threadAt .gdb t.threads (Crash.findCrashThread t)) | _ => .ub
  threads := some fun | .gdb t => .ok (firstThread .gdb t.threads) | _ => .ub
  setThreads := some fun
    | .gdb t, none => .ok (.gdb { t with threads := [] })
    | .gdb t, some (.gdb u l) => .ok (.gdb { t with threads := u :: l })
    | _, _ => .ub
  bthash := some fun | .gdb t => .ok (t.libs.flatMap libBt ++ c!"\n") | _ => .ub

/-- `ruby_stacktrace_methods` (lib/ruby_stacktrace.c:61-75). -/
def rubyMethods : TraceMethods where
  parse := some fun s => parsed .ruby (Text.Ruby.parse s)
  toShortText := some (shortTextOf oneThread)
  toJson := some (only .ruby fun t => .ok (traceToJson t))
  fromJson := some fun j => .ok ((Json.Ruby.fromJson j).map .ruby)
  getReason := some (only .ruby traceReason)
  findCrashThread := some oneThread
  threads := some oneThread
  setThreads := none
  bthash := some fun | .ruby t => .ok (c!"Exception: " ++ orUnknown t.exceptionName ++ c!"\n" ++ c!"\n") | _ => .ub

/-- `js_stacktrace_methods` (lib/js_stacktrace.c:63-77). -/
def jsMethods : TraceMethods where
  parse := some fun s => parsed .js (Text.Js.parseTrace s)
  toShortText := some (shortTextOf oneThread)
  toJson := some (only .javascript fun t => .ok (traceToJson t))
  fromJson := some fun j => .ok ((Json.Js.fromJson j).map .js)
  getReason := some (only .javascript traceReason)
  findCrashThread := some oneThread
  threads := some oneThread
  setThreads := none
  bthash := some fun | .js t => .ok (c!"Error: " ++ orUnknown t.exceptionName ++ c!"\n" ++ c!"\n") | _ => .ub

/-- The table (lib/generic_stacktrace.c:34-43). -/
def traceTable : ReportType → TraceMethods
  | .core => coreMethods
  | .python => pythonMethods
  | .kerneloops => koopsMethods
  | .java => javaMethods
  | .gdb => gdbMethods
  | .ruby => rubyMethods
  | .javascript => jsMethods
  | .invalid => ⟨none, none, none, none, none, none, none, none, none⟩

/-- `sr_stacktrace_parse` (lib/generic_stacktrace.c:96-100). -/
def parse (type : Int) (s : Str) : Out (Option Stacktrace) := do (← dispatch traceTable type (·.parse)) s

/-- `sr_stacktrace_from_json` (lib/generic_stacktrace.c:102-106). -/
def fromJson (type : Int) (j : Json.Value) : Out (Option Stacktrace) := do (← dispatch traceTable type (·.fromJson)) j

/-- `sr_stacktrace_from_json_text` (lib/generic_stacktrace.c:108-133). -/
def fromJsonText (type : Int) (s : Str) : Out (Option Stacktrace) :=
  match Json.parse s with
  | none => .ok none
  | some j => fromJson type j

/-- `sr_stacktrace_to_short_text` (lib/generic_stacktrace.c:135-139). -/
def toShortText (t : Stacktrace) (max : Int) : Out (Option Str) := do
  (← dispatch traceTable (typeOf t).code (·.toShortText)) t max

/-- `sr_stacktrace_to_json` (lib/generic_stacktrace.c:141-145). -/
def toJson (t : Stacktrace) : Out (Option Str) := do (← dispatch traceTable (typeOf t).code (·.toJson)) t

/-- `sr_stacktrace_get_reason` (lib/generic_stacktrace.c:147-151). -/
def getReason (t : Stacktrace) : Out (Option Str) := do (← dispatch traceTable (typeOf t).code (·.getReason)) t

/-- `sr_stacktrace_find_crash_thread` (lib/generic_stacktrace.c:153-157). -/
def findCrashThread (t : Stacktrace) : Out (Option Thread) := do
  (← dispatch traceTable (typeOf t).code (·.findCrashThread)) t

/-- `sr_stacktrace_threads` (lib/generic_stacktrace.c:159-163). -/
def threads (t : Stacktrace) : Out (Option Thread) := do (← dispatch traceTable (typeOf t).code (·.threads)) t

/-- `sr_stacktrace_set_threads` (lib/generic_stacktrace.c:165-170). -/
def setThreads (t : Stacktrace) (u : Option Thread) : Out Stacktrace :=
  if u = none ∨ u.map Thread.type = some (typeOf t) then do (← dispatch traceTable (typeOf t).code (·.setThreads)) t u
  else .abort

/-- The loop over frames (lib/generic_stacktrace.c:198-203). -/
def btFrames : Nat → Option Frame → Out Str
  | 0, _ => .ub
  | _ + 1, none => .ok []
  | k + 1, some f => do
    let x ← f.bthash
    let g ← f.next
    let r ← btFrames k g
    .ok (x ++ r)

/-- The loop over threads (lib/generic_stacktrace.c:191-208). -/
def btThreads : Nat → Option Thread → Out Str
  | 0, _ => .ub
  | _ + 1, none => .ok []
  | k + 1, some t => do
    let x ← t.bthash
    let f ← t.frames
    let y ← btFrames (fuel f) f
    let u ← t.next
    let r ← btThreads k u
    .ok (x ++ y ++ (if u.isSome then c!"\n" else []) ++ r)

/-- The fuel for a loop over the threads. -/
def threadFuel : Option Thread → Nat
  | none => 1
  | some t => t.size + 1

/-- `sr_stacktrace_get_bthash` (lib/generic_stacktrace.c:181-220). -/
def getBthash (sha1 : Str → Str) (t : Stacktrace) (nohash : Bool) : Out Str := do
  let head ← (← dispatch traceTable (typeOf t).code (·.bthash)) t
  let th ← threads t
  let r ← btThreads (threadFuel th) th
  .ok (if nohash then head ++ r else sha1 (head ++ r))

end Satyr.Generic
