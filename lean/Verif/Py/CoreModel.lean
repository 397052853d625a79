import Verif.Py.ObjectsModel
import Verif.Generic.Model
/-!
# Model of core stack traces as Python objects

python/py_core_stacktrace.c, python/py_core_thread.c and the part of python/py_base_stacktrace.c for stack traces with several threads.
The memory of C threads is modelled, since a core stack trace has a pointer to one of them. Frames are values. A list in which a thread
occurs more than once is undefined here (the linked list is cut, see `C104_not_repeated`). Reference counts are in `Verif.Py.Lists`.
-/
namespace Satyr.Py.Core
open Satyr.CStr Satyr.Frames Satyr.Normalize Satyr.Generic
open Satyr.Py.Base (Exc)
open Satyr.Py.Objects (parseArgs textAt)

/-- An object of the class `CoreThread` (python/py_core_thread.h:40-46): the address of the C thread, and the list of frames, in which
`none` is something else than a core frame. -/
structure ThreadObj where
  ptr : Nat
  items : List (Option CoreFrame) := []
  deriving DecidableEq

/-- An object of the class `CoreStacktrace` with its C stack trace: `crash` is the member `crash_thread`, `head` the linked list of
threads, `items` the Python list, in which `none` is something else than a core thread. -/
structure Obj where
  signal : Nat := 0
  executable : Option Str := none
  onlyCrashThread : Bool := false
  crash : Option Nat := none
  head : List Nat := []
  items : List (Option ThreadObj) := []
  deriving DecidableEq

/-- The C threads in memory. Addresses from `next` on have not been used. -/
structure World where
  thread : Nat → Option CoreThread := fun _ => none
  next : Nat := 1

def World.set (w : World) (p : Nat) (t : CoreThread) : World := { w with thread := fun q => if q = p then some t else w.thread q }

/-- Allocation of threads at the following addresses. -/
def World.add (w : World) (ts : List CoreThread) : World where
  thread p := if w.next ≤ p ∧ p < w.next + ts.length then ts[p - w.next]? else w.thread p
  next := w.next + ts.length

/-- Destruction of thread objects to which there is no other reference (python/py_core_thread.c:112-121). -/
def World.free (w : World) (ps : List Nat) : World := { w with thread := fun q => if q ∈ ps then none else w.thread q }

/-- The addresses of the threads in a list. -/
def ptrs (items : List (Option ThreadObj)) : List Nat := items.filterMap fun i => i.map ThreadObj.ptr

/-- `frames_prepare_linked_list` (python/py_base_thread.c:115-156); `none` is the exception. -/
def prepareThread (t : ThreadObj) (w : World) : Out (Option World) :=
  match w.thread t.ptr with
  | none => .ub
  | some c =>
    match t.items.mapM id with
    | none => .ok none
    | some [] => .ok (some w)
    | some (f :: fs) => .ok (some (w.set t.ptr { c with frames := f :: fs }))

/-- The loop of `threads_prepare_linked_list` (python/py_base_stacktrace.c:188-217). -/
def prepareAll : List (Option ThreadObj) → World → Out (Option World)
  | [], w => .ok (some w)
  | none :: _, _ => .ok none
  | some t :: l, w =>
    match prepareThread t w with
    | .ok (some w) => prepareAll l w
    | r => r

/-- `threads_prepare_linked_list` (python/py_base_stacktrace.c:181-226): an empty list leaves the old linked list. What is changed
before an exception is not modelled. -/
def prepare (o : Obj) (w : World) : Out (Option (Obj × World)) :=
  match prepareAll o.items w with
  | .ok (some w) =>
    if (ptrs o.items).Nodup then .ok (some (if o.items = [] then o else { o with head := ptrs o.items }, w)) else .ub
  | .ok none => .ok none
  | .abort => .abort
  | .ub => .ub

/-- Walking along threads. -/
def World.readAll (w : World) : List Nat → Out (List CoreThread)
  | [] => .ok []
  | p :: ps =>
    match w.thread p with
    | none => .ub
    | some c => do
      let r ← w.readAll ps
      .ok (c :: r)

/-- `sr_core_stacktrace_find_crash_thread` (lib/core_stacktrace.c:137-162): the pointer that is stored is returned as it is. -/
def findCrash (o : Obj) (w : World) : Out (Option Nat) :=
  match o.crash with
  | some p => .ok (some p)
  | none => do
    let ts ← w.readAll o.head
    .ok ((Short.coreCrashThread { threads := ts }).bind fun i => o.head[i]?)

/-- The text of the thread that was found. -/
def textOf (w : World) (max : Int) : Option Nat → Out (Except Exc Str)
  | none => .ok (.error .system)
  | some p =>
    match w.thread p with
    | none => .ub
    | some c => do
      let s ← Short.shortText Short.coreFrame (some c.frames) max
      .ok (match s with | some s => .ok s | none => .error .system)

/-- `sr_py_multi_stacktrace_to_short_text` (python/py_base_stacktrace.c:281-302). NULL without an exception is an error of the
interpreter. -/
def toShortText (max : Int) (o : Obj) (w : World) : Out (Except Exc Str) :=
  match intArg max with
  | none => .ok (.error .overflow)
  | some max =>
    match prepare o w with
    | .ok (some (o, w)) => findCrash o w >>= textOf w max
    | .ok none => .ok (.error .type)
    | .abort => .abort
    | .ub => .ub

/-- `sr_py_multi_stacktrace_get_bthash` (python/py_base_stacktrace.c:330-352); bit 1 is `SR_BTHASH_NOHASH` (include/stacktrace.h:64). -/
def getBthash (sha1 : Str → Str) (flags : Int) (o : Obj) (w : World) : Out (Except Exc Str) :=
  match intArg flags with
  | none => .ok (.error .overflow)
  | some flags =>
    match prepare o w with
    | .ok (some (o, w)) => do
      let ts ← w.readAll o.head
      let s ← Generic.getBthash sha1 (.core { signal := o.signal, executable := o.executable, threads := ts }) (Base.bit flags 1)
      .ok (.ok s)
    | .ok none => .ok (.error .type)
    | .abort => .abort
    | .ub => .ub

/-- The loop of `sr_py_multi_stacktrace_get_crash` (python/py_base_stacktrace.c:389-412): the object, or `None`. -/
def search (p : Nat) : List (Option ThreadObj) → Except Exc (Option ThreadObj)
  | [] => .ok none
  | none :: _ => .error .type
  | some t :: l => if t.ptr = p then .ok (some t) else search p l

/-- `sr_py_multi_stacktrace_get_crash` (python/py_base_stacktrace.c:369-413). -/
def getCrash (o : Obj) (w : World) : Out (Except Exc (Option ThreadObj)) :=
  match prepare o w with
  | .ok (some (o, w)) => do
    match ← findCrash o w with
    | none => .ok (.ok none)
    | some p => .ok (search p o.items)
  | .ok none => .ok (.error .type)
  | .abort => .abort
  | .ub => .ub

/-- The objects for threads at the addresses from `n` on (`threads_to_python_list`, python/py_base_stacktrace.c:228-257). -/
def objects (n : Nat) (ts : List CoreThread) : List (Option ThreadObj) :=
  (ts.zipIdx n).map fun x => some { ptr := x.2, items := x.1.frames.map some }

/-- `core_stacktrace_to_python_obj` (python/py_core_stacktrace.c:115-133) for a stack trace whose threads were allocated just before. -/
def wrap (t : CoreTrace) (w : World) : Obj × World :=
  ({ signal := t.signal, executable := t.executable, onlyCrashThread := t.onlyCrashThread, crash := t.crashThread.map (w.next + ·),
     head := List.range' w.next t.threads.length, items := objects w.next t.threads }, w.add t.threads)

/-- `sr_py_core_stacktrace_new` (python/py_core_stacktrace.c:136-162). -/
def new (args : List Value) (w : World) : Except Exc (Obj × World) :=
  if args.length > 1 then .error .type
  else
    match parseArgs [false] args with
    | .error e => .error e
    | .ok l =>
      match textAt l 0 with
      | none => .ok (wrap {} w)
      | some s =>
        match (Json.parse s).bind Json.Core.fromJson with
        | none => .error .value
        | some t => .ok (wrap t w)

/-- `sr_py_core_stacktrace_dup` (python/py_core_stacktrace.c:191-203). The copy (lib/core_stacktrace.c:109-121) has the pointer to the
crash thread of the original. -/
def dup (o : Obj) (w : World) : Out (Except Exc (Obj × World)) :=
  match prepare o w with
  | .ok (some (o, w)) => do
    let ts ← w.readAll o.head
    let r := wrap { signal := o.signal, executable := o.executable, onlyCrashThread := o.onlyCrashThread, threads := ts } w
    .ok (.ok ({ r.1 with crash := o.crash }, r.2))
  | .ok none => .ok (.error .type)
  | .abort => .abort
  | .ub => .ub

/-- `sr_py_core_stacktrace_str` (python/py_core_stacktrace.c:177-188). -/
def str (o : Obj) : Str := c!"Core stacktrace with " ++ natDec o.items.length ++ c!" threads"

end Satyr.Py.Core
