import Verif.Generic.Model
import Verif.Py.Metrics
/-!
# Model of the methods that all frames and threads have in Python

python/py_base_frame.c, python/py_base_thread.c and the part of python/py_base_stacktrace.c for stack traces with one thread (which
are threads in Python, too). Each type of frames and each type of threads has one class. Reference counts are in `Verif.Py.Lists`.
-/
namespace Satyr.Py.Base
open Satyr.CStr Satyr.Frames Satyr.Normalize Satyr.Report Satyr.Generic Satyr.Distances
open Satyr.Hash (DupFlags)

/-- Exceptions; `system` is raised by the interpreter if a method fails without an exception or succeeds with one. -/
inductive Exc | type | value | overflow | runtime | system
  deriving DecidableEq, Repr

/-- A thread object: the C thread, and the Python list of frames; an item is `none` if it is no frame. -/
structure ThreadObj where
  thread : Thread
  items : List (Option Frame) := []
  deriving DecidableEq

/-- An argument. -/
inductive Arg
  | frame (f : Frame)
  | thread (t : ThreadObj)
  | other

/-- The frame of an object of the class of core frames, and so on; `PyObject_TypeCheck` fails for other objects. -/
def coreOf : Frame → Option CoreFrame
  | .core f _ => some f
  | _ => none
def pythonOf : Frame → Option PythonFrame
  | .python f _ => some f
  | _ => none
def koopsOf : Frame → Option KoopsFrame
  | .koops f _ => some f
  | _ => none
def javaOf : Frame → Option JavaFrame
  | .java f _ => some f
  | _ => none
def gdbOf : Frame → Option GdbFrame
  | .gdb f _ => some f
  | _ => none
def rubyOf : Frame → Option RubyFrame
  | .ruby f _ => some f
  | _ => none
def jsOf : Frame → Option JsFrame
  | .js f _ => some f
  | _ => none

/-- The loop of `frames_prepare_linked_list` (python/py_base_thread.c:122-148): the new linked list, or `none` for the exception. An
empty list leaves the old one. -/
def linked {F : Type} (pick : Frame → Option F) (old : List F) (items : List (Option Frame)) : Option (List F) :=
  match items.mapM (fun i => i.bind pick) with
  | none => none
  | some [] => some old
  | some (f :: fs) => some (f :: fs)

/-- `frames_prepare_linked_list` (python/py_base_thread.c:115-156): the C thread afterwards. -/
def ThreadObj.prepare (o : ThreadObj) : Option Thread :=
  match o.thread with
  | .core t n => (linked coreOf t.frames o.items).map fun fs => .core { t with frames := fs } n
  | .python t => (linked pythonOf t.frames o.items).map fun fs => .python { t with frames := fs }
  | .koops t => (linked koopsOf t.frames o.items).map fun fs => .koops { t with frames := fs }
  | .java t n => (linked javaOf t.frames o.items).map fun fs => .java { t with frames := fs } n
  | .gdb t n => (linked gdbOf t.frames o.items).map fun fs => .gdb { t with frames := fs } n
  | .ruby t => (linked rubyOf t.frames o.items).map fun fs => .ruby { t with frames := fs }
  | .js t => (linked jsOf t.frames o.items).map fun fs => .js { t with frames := fs }

/-! ## Comparison -/

/-- `normalize_cmp` (python/py_common.c:208-217). -/
def normalizeCmp (n : Int) : Int := if n > 0 then 1 else if n < 0 then -1 else 0

/-- `sr_py_base_frame_cmp` (python/py_base_frame.c:108-118). `diff` is the difference of the addresses of the classes, as `int`. -/
def frameCmp (diff : ReportType → ReportType → Int) (f g : Frame) : Out Int :=
  if f.type ≠ g.type then .ok (normalizeCmp (diff f.type g.type))
  else do
    let c ← f.cmp g
    .ok (normalizeCmp c)

/-- `sr_py_base_frame_equals` (python/py_base_frame.c:120-133). -/
def frameEquals (diff : ReportType → ReportType → Int) (f : Frame) : Arg → Out (Except Exc Bool)
  | .frame g => do
    let c ← frameCmp diff f g
    .ok (.ok (decide (c = 0)))
  | _ => .ok (.error .type)

/-- `sr_py_base_frame_short_string` (python/py_base_frame.c:94-106). -/
def shortString (f : Frame) : Out (Except Exc Str) := do
  let s ← f.appendToStr
  .ok (.ok s)

/-- `sr_py_base_thread_cmp` (python/py_base_thread.c:189-206), and whether an exception is set. -/
def threadCmp (diff : ReportType → ReportType → Int) (t u : ThreadObj) : Out (Int × Bool) :=
  if t.thread.type ≠ u.thread.type then .ok (normalizeCmp (diff t.thread.type u.thread.type), false)
  else
    match t.prepare with
    | none => .ok (-1, true)
    | some a =>
      match u.prepare with
      | none => .ok (-1, true)
      | some b => do
        let c ← a.cmp b
        .ok (normalizeCmp c, false)

/-- `sr_py_base_thread_equals` (python/py_base_thread.c:208-221): `True` or `False` with an exception set is an error of the
interpreter. -/
def threadEquals (diff : ReportType → ReportType → Int) (t : ThreadObj) : Arg → Out (Except Exc Bool)
  | .thread u => do
    let (c, raised) ← threadCmp diff t u
    if raised then .ok (.error .system) else .ok (.ok (decide (c = 0)))
  | _ => .ok (.error .type)

/-! ## Distance and hashes -/

/-- `sr_py_base_thread_distance` (python/py_base_thread.c:224-258); `dist` is `sr_distance` for threads of the same type. -/
def distance {α : Type} (dist : DistType → Thread → Thread → α) (t : ThreadObj) (o : Arg) (distType : Int) : Except Exc α :=
  match o with
  | .thread u =>
    match intArg distType with
    | none => .error .overflow
    | some d =>
      match t.prepare with
      | none => .error .type
      | some a =>
        match u.prepare with
        | none => .error .type
        | some b =>
          if t.thread.type ≠ u.thread.type then .error .type
          else
            match distTypeOf d with
            | none => .error .value
            | some d => .ok (dist d a b)
  | _ => .error .type

/-- A bit of an `int`. -/
def bit (n : Int) (k : Nat) : Bool := decide ((n / 2 ^ k) % 2 = 1)

/-- The flags of the duplication hash (include/thread.h:59-76). -/
def dupFlags (n : Int) : DupFlags := { nohash := bit n 1, noNormalize := bit n 2, koopsCompat := bit n 3 }

/-- `sr_py_base_thread_get_duphash` (python/py_base_thread.c:260-287); the default of both numbers is 0. -/
def getDuphash (sha1 : Str → Str) (t : ThreadObj) (frames flags : Int) (pre : Option Str) : Out (Except Exc Str) :=
  match intArg frames, intArg flags with
  | some n, some f =>
    match t.prepare with
    | none => .ok (.error .type)
    | some a => do
      match ← a.duphash sha1 n pre (dupFlags f) with
      | none => .ok (.error .runtime)
      | some h => .ok (.ok h)
  | _, _ => .ok (.error .overflow)

/-! ## Stack traces with one thread -/

/-- A thread of these types is a stack trace; the other classes do not have the methods. -/
def asTrace : Thread → Option Stacktrace
  | .python t => some (.python t)
  | .koops t => some (.koops t)
  | .ruby t => some (.ruby t)
  | .js t => some (.js t)
  | _ => none

/-- `sr_py_single_stacktrace_to_short_text` (python/py_base_stacktrace.c:259-279). -/
def toShortText (o : ThreadObj) (max : Int) : Out (Except Exc Str) :=
  match intArg max with
  | none => .ok (.error .overflow)
  | some n =>
    match o.prepare with
    | none => .ok (.error .type)
    | some a =>
      match asTrace a with
      | none => .ub
      | some s => do
        match ← Generic.toShortText s n with
        | none => .ok (.error .system)
        | some x => .ok (.ok x)

/-- `sr_py_single_stacktrace_get_bthash` (python/py_base_stacktrace.c:306-328). -/
def getBthash (sha1 : Str → Str) (o : ThreadObj) (flags : Int) : Out (Except Exc Str) :=
  match intArg flags with
  | none => .ok (.error .overflow)
  | some f =>
    match o.prepare with
    | none => .ok (.error .type)
    | some a =>
      match asTrace a with
      | none => .ub
      | some s => do
        let h ← Generic.getBthash sha1 s (bit f 1)
        .ok (.ok h)

/-- `frames_to_python_list` (python/py_base_thread.c:158-186): the frames, one after the other. -/
def toItems (fs : Option Frame) (n : Nat) : Out (List (Option Frame)) :=
  match n, fs with
  | 0, _ => .ub
  | _ + 1, none => .ok []
  | n + 1, some f => do
    let g ← f.next
    let r ← toItems g n
    .ok (some f :: r)

/-- A new object for a stack trace with one thread. -/
def ofTrace (s : Stacktrace) : Out ThreadObj := do
  match ← oneThread s with
  | none => .ub
  | some t =>
    let fs ← t.frames
    let items ← toItems fs (fuel fs)
    .ok { thread := t, items := items }

/-- The document has a platform. -/
def hasPlatform (text : Str) : Bool :=
  match Json.parse text with
  | none => false
  | some j => (Json.get j c!"platform").isSome

/-- `sr_py_single_stacktrace_from_json` (python/py_base_stacktrace.c:415-447) of the class for a type. The variable `error_message`
is not initialized; lib/js_stacktrace.c:341 reads it after it has read the platform. -/
def fromJson (type : ReportType) (text : Str) : Out (Except Exc ThreadObj) := do
  match ← fromJsonText type.code text with
  | none => .ok (.error .value)
  | some s =>
    if type = .javascript ∧ hasPlatform text = true then .ub
    else do
      let o ← ofTrace s
      .ok (.ok o)

end Satyr.Py.Base
