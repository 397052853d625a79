import Verif.Py.CoreModel
import Verif.Text.JavaModel
/-!
# Model of Java stack traces as Python objects

python/py_java_stacktrace.c, the part of python/py_base_stacktrace.c for stack traces with several threads, and the class method `from_json`
of these. The memory of C threads is modelled as in `Verif.Py.CoreModel`. A list in which a thread occurs more than once is undefined here
(see `C104_not_repeated`). Reference counts are in `Verif.Py.Lists`.
-/
namespace Satyr.Py.Java
open Satyr.CStr Satyr.Frames Satyr.Normalize Satyr.Generic
open Satyr.Py.Base (Exc)
open Satyr.Py.Objects (textArg)

/-- An object of the class `JavaThread` (python/py_java_thread.h:40-46): the address of the C thread, and the list of frames, in which
`none` is something else than a Java frame. -/
structure ThreadObj where
  ptr : Nat
  items : List (Option JavaFrame) := []
  deriving DecidableEq

/-- An object of the class `JavaStacktrace` (python/py_java_stacktrace.h:43-50): `head` is the linked list of threads of the C stack
trace, `items` the Python list, in which `none` is something else than a Java thread. -/
structure Obj where
  head : List Nat := []
  items : List (Option ThreadObj) := []
  deriving DecidableEq

/-- The C threads in memory. Addresses from `next` on have not been used. -/
structure World where
  thread : Nat → Option JavaThread := fun _ => none
  next : Nat := 1

def World.set (w : World) (p : Nat) (t : JavaThread) : World := { w with thread := fun q => if q = p then some t else w.thread q }

/-- Allocation of threads at the following addresses. -/
def World.add (w : World) (ts : List JavaThread) : World where
  thread p := if w.next ≤ p ∧ p < w.next + ts.length then ts[p - w.next]? else w.thread p
  next := w.next + ts.length

/-- Destruction of thread objects to which there is no other reference (python/py_java_thread.c:148-158). -/
def World.free (w : World) (ps : List Nat) : World := { w with thread := fun q => if q ∈ ps then none else w.thread q }

/-- The addresses of the threads in a list. -/
def ptrs (items : List (Option ThreadObj)) : List Nat := items.filterMap fun i => i.map ThreadObj.ptr

/-- `frames_prepare_linked_list` (python/py_base_thread.c:115-156); `none` is the exception. An empty list leaves the old frames. -/
def prepareThread (t : ThreadObj) (w : World) : Out (Option World) :=
  match w.thread t.ptr with
  | none => .ub
  | some c =>
    match t.items.mapM id with
    | none => .ok none
    | some [] => .ok (some w)
    | some (f :: fs) => .ok (some (w.set t.ptr { c with frames := f :: fs }))

/-- The loop of `threads_prepare_linked_list` (python/py_base_stacktrace.c:188-217). -/
def prepareAll : List (Option ThreadObj) → World → Out (Option World)
  | [], w => .ok (some w)
  | none :: _, _ => .ok none
  | some t :: l, w =>
    match prepareThread t w with
    | .ok (some w) => prepareAll l w
    | r => r

/-- `threads_prepare_linked_list` (python/py_base_stacktrace.c:181-226): an empty list leaves the old linked list. What is changed
before an exception is not modelled. -/
def prepare (o : Obj) (w : World) : Out (Option (Obj × World)) :=
  match prepareAll o.items w with
  | .ok (some w) =>
    if (ptrs o.items).Nodup then .ok (some (if o.items = [] then o else { o with head := ptrs o.items }, w)) else .ub
  | .ok none => .ok none
  | .abort => .abort
  | .ub => .ub

/-- Walking along threads. -/
def World.readAll (w : World) : List Nat → Out (List JavaThread)
  | [] => .ok []
  | p :: ps =>
    match w.thread p with
    | none => .ub
    | some c => do
      let r ← w.readAll ps
      .ok (c :: r)

/-- `sr_java_find_crash_thread` (lib/java_stacktrace.c:274-280): the first thread, which is not read. -/
def findCrash (o : Obj) : Option Nat := o.head.head?

/-- The text of the thread that was found. -/
def textOf (w : World) (max : Int) : Option Nat → Out (Except Exc Str)
  | none => .ok (.error .system)
  | some p =>
    match w.thread p with
    | none => .ub
    | some c => do
      let s ← Short.shortText (fun f => .ok (Text.Java.printFrame f)) (some c.frames) max
      .ok (match s with | some s => .ok s | none => .error .system)

/-- `sr_py_multi_stacktrace_to_short_text` (python/py_base_stacktrace.c:281-302). NULL without an exception is an error of the
interpreter. -/
def toShortText (max : Int) (o : Obj) (w : World) : Out (Except Exc Str) :=
  match intArg max with
  | none => .ok (.error .overflow)
  | some max =>
    match prepare o w with
    | .ok (some (o, w)) => textOf w max (findCrash o)
    | .ok none => .ok (.error .type)
    | .abort => .abort
    | .ub => .ub

/-- `sr_py_multi_stacktrace_get_bthash` (python/py_base_stacktrace.c:330-352); bit 1 is `SR_BTHASH_NOHASH` (include/stacktrace.h:64). -/
def getBthash (sha1 : Str → Str) (flags : Int) (o : Obj) (w : World) : Out (Except Exc Str) :=
  match intArg flags with
  | none => .ok (.error .overflow)
  | some flags =>
    match prepare o w with
    | .ok (some (o, w)) => do
      let ts ← w.readAll o.head
      let s ← Generic.getBthash sha1 (.java { threads := ts }) (Base.bit flags 1)
      .ok (.ok s)
    | .ok none => .ok (.error .type)
    | .abort => .abort
    | .ub => .ub

/-- The loop of `sr_py_multi_stacktrace_get_crash` (python/py_base_stacktrace.c:389-412): the object, or `None`. -/
def search (p : Nat) : List (Option ThreadObj) → Except Exc (Option ThreadObj)
  | [] => .ok none
  | none :: _ => .error .type
  | some t :: l => if t.ptr = p then .ok (some t) else search p l

/-- `sr_py_multi_stacktrace_get_crash` (python/py_base_stacktrace.c:369-413). -/
def getCrash (o : Obj) (w : World) : Out (Except Exc (Option ThreadObj)) :=
  match prepare o w with
  | .ok (some (o, _)) =>
    match findCrash o with
    | none => .ok (.ok none)
    | some p => .ok (search p o.items)
  | .ok none => .ok (.error .type)
  | .abort => .abort
  | .ub => .ub

/-- The objects for threads at the addresses from `n` on (`threads_to_python_list`, python/py_base_stacktrace.c:228-257). -/
def objects (n : Nat) (ts : List JavaThread) : List (Option ThreadObj) :=
  (ts.zipIdx n).map fun x => some { ptr := x.2, items := x.1.frames.map some }

/-- `java_stacktrace_to_python_obj` (python/py_java_stacktrace.c:77-95) for a stack trace whose threads were allocated just before. -/
def wrap (t : JavaTrace) (w : World) : Obj × World :=
  ({ head := List.range' w.next t.threads.length, items := objects w.next t.threads }, w.add t.threads)

/-- `sr_py_java_stacktrace_new` (python/py_java_stacktrace.c:98-124); `sr_java_stacktrace_parse` (lib/java_stacktrace.c:148-159) reads one
thread. -/
def new (args : List Value) (w : World) : Out (Except Exc (Obj × World)) :=
  match args with
  | [] => .ok (.ok (wrap {} w))
  | [s] =>
    match textArg s with
    | .error e => .ok (.error e)
    | .ok s => do
      match ← Text.Java.parseThread s with
      | none => .ok (.error .value)
      | some r => .ok (.ok (wrap { threads := [r.1] } w))
  | _ => .ok (.error .type)

/-- `sr_py_java_stacktrace_dup` (python/py_java_stacktrace.c:153-165): the copy, the object afterwards, and the memory. -/
def dup (o : Obj) (w : World) : Out (Except Exc (Obj × Obj × World)) :=
  match prepare o w with
  | .ok (some (o, w)) => do
    let ts ← w.readAll o.head
    let r := wrap { threads := ts } w
    .ok (.ok (r.1, o, r.2))
  | .ok none => .ok (.error .type)
  | .abort => .abort
  | .ub => .ub

/-- `sr_py_java_stacktrace_str` (python/py_java_stacktrace.c:139-150). -/
def str (o : Obj) : Str := c!"Java stacktrace with " ++ natDec o.items.length ++ c!" threads"

/-- `sr_py_java_stacktrace_free` (python/py_java_stacktrace.c:127-136) when nothing else refers to the threads: those of the Python list are
destroyed with it, whatever the linked list was. -/
def free (o : Obj) (w : World) : World := w.free (ptrs o.items)

/-- `sr_py_multi_stacktrace_from_json` (python/py_base_stacktrace.c:449-479) of the class for a type: what `wrapAs` makes of the stack trace
that was read. -/
def fromJsonAs {A : Type} (type : Report.ReportType) (wrapAs : Report.Stacktrace → Out A) (text : Value) : Out (Except Exc A) :=
  match textArg text with
  | .error e => .ok (.error e)
  | .ok s => do
    match ← fromJsonText type.code s with
    | none => .ok (.error .value)
    | some t => do
      let a ← wrapAs t
      .ok (.ok a)

/-- `JavaStacktrace.from_json`. -/
def fromJson (text : Value) (w : World) : Out (Except Exc (Obj × World)) :=
  fromJsonAs .java (fun | .java t => .ok (wrap t w) | _ => .ub) text

/-- `CoreStacktrace.from_json`. -/
def coreFromJson (text : Value) (w : Core.World) : Out (Except Exc (Core.Obj × Core.World)) :=
  fromJsonAs .core (fun | .core t => .ok (Core.wrap t w) | _ => .ub) text

/-- `GdbStacktrace.from_json` (python/py_gdb_stacktrace.c:123). -/
def gdbFromJson (text : Value) : Out (Except Exc Unit) := fromJsonAs .gdb (fun _ => .ok ()) text

end Satyr.Py.Java
