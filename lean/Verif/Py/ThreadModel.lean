import Verif.Py.ObjectsModel
import Verif.Gdb.FunsModel
import Verif.Gdb.TraceModel
import Verif.Text.JavaModel
import Verif.Crash.Model
/-!
# Model of the threads of GDB, Java and core stack traces as Python objects

python/py_gdb_thread.c, python/py_java_thread.c and python/py_core_thread.c. The C frames have addresses, since the methods `format_funs` walk along the linked
list as it was made last. A list in which a frame occurs more than once is undefined here (the linked list becomes a cycle or is cut, see
`C104_not_repeated`), and frames in two lists at once are not modelled. Reference counts are in `Verif.Py.Lists`. A method that raises
an exception leaves the linked list in a state that is not modelled.
-/
namespace Satyr.Py.Threads
open Satyr.CStr Satyr.Frames Satyr.Normalize
open Satyr.Py.Base (Exc)
open Satyr.Py.Objects (textArg)

/-- The three kinds of C threads: their frames, and the same thread with other frames. -/
structure Kind (T F : Type) where
  frames : T → List F
  set : T → List F → T

def gdb : Kind GdbThread GdbFrame := ⟨GdbThread.frames, fun t fs => { t with frames := fs }⟩
def java : Kind JavaThread JavaFrame := ⟨JavaThread.frames, fun t fs => { t with frames := fs }⟩
def core : Kind CoreThread Normalize.CoreFrame := ⟨CoreThread.frames, fun t fs => { t with frames := fs }⟩

/-- An object (python/py_gdb_thread.h:40-46, python/py_java_thread.h:40-46, python/py_core_thread.h:40-46): the members of the C thread other than the frames, the
linked list of frames, and the Python list, in which `none` is something else than a frame of this class. -/
structure Obj (T : Type) where
  info : T
  head : List Nat := []
  items : List (Option Nat) := []

/-- The C frames in memory. Addresses from `next` on have not been used. -/
structure World (F : Type) where
  frame : Nat → Option F := fun _ => none
  next : Nat := 1

variable {T F : Type}

/-- Allocation of frames at the following addresses. -/
def World.add (w : World F) (fs : List F) : World F where
  frame p := if w.next ≤ p ∧ p < w.next + fs.length then fs[p - w.next]? else w.frame p
  next := w.next + fs.length

/-- Destruction of frame objects to which there is no other reference (python/py_gdb_frame.c:207-214, python/py_java_frame.c:156-163,
python/py_core_frame.c:138-144). -/
def World.free (w : World F) (ps : List Nat) : World F := { w with frame := fun q => if q ∈ ps then none else w.frame q }

/-- Walking along frames. -/
def World.readAll (w : World F) : List Nat → Out (List F)
  | [] => .ok []
  | p :: ps =>
    match w.frame p with
    | none => .ub
    | some c => do
      let r ← w.readAll ps
      .ok (c :: r)

/-- `frames_prepare_linked_list` (python/py_base_thread.c:115-156); `none` is the exception. An empty list leaves the old frames. -/
def prepare (o : Obj T) : Out (Option (Obj T)) :=
  match o.items.mapM id with
  | none => .ok none
  | some [] => .ok (some o)
  | some (p :: ps) => if (p :: ps).Nodup then .ok (some { o with head := p :: ps }) else .ub

/-- The C thread as it is linked. -/
def linked (k : Kind T F) (o : Obj T) (w : World F) : Out T := do
  let fs ← w.readAll o.head
  .ok (k.set o.info fs)

/-- A method that links the frames and computes something from the C thread; the result and the object afterwards. -/
def method {A : Type} (k : Kind T F) (f : T → A) (o : Obj T) (w : World F) : Out (Except Exc (A × Obj T)) :=
  match prepare o with
  | .ok (some o) => do
    let t ← linked k o w
    .ok (.ok (f t, o))
  | .ok none => .ok (.error .type)
  | .abort => .abort
  | .ub => .ub

/-- A new object for a C thread whose frames were allocated just before (`frames_to_python_list`, python/py_base_thread.c:158-186). -/
def wrap (k : Kind T F) (t : T) (w : World F) : Obj T × World F :=
  ({ info := t, head := List.range' w.next (k.frames t).length, items := (List.range' w.next (k.frames t).length).map some },
    w.add (k.frames t))

/-- Format `i` of `PyArg_ParseTuple`. -/
def smallArg (v : Value) : Except Exc Int :=
  match v.asInt with
  | none => .error .type
  | some z =>
    match intArg z with
    | none => .error .overflow
    | some z => .ok z

/-- A new thread read from a text, or the exception. -/
def made (k : Kind T F) (w : World F) : Option (T × Str) → Except Exc (Obj T × World F)
  | none => .error .value
  | some r => .ok (wrap k r.1 w)

/-- The arguments of `sr_py_gdb_thread_new` (python/py_gdb_thread.c:121-124): more than two are refused before any is converted. -/
def gdbArgs : List Value → Except Exc (Option (Str × Int))
  | [] => .ok none
  | [s] =>
    match textArg s with
    | .error e => .error e
    | .ok s => .ok (some (s, 0))
  | [s, n] =>
    match textArg s with
    | .error e => .error e
    | .ok s =>
      match smallArg n with
      | .error e => .error e
      | .ok n => .ok (some (s, n))
  | _ => .error .type

/-- `sr_py_gdb_thread_new` (python/py_gdb_thread.c:109-155). -/
def gdbNew (args : List Value) (w : World GdbFrame) : Out (Except Exc (Obj GdbThread × World GdbFrame)) :=
  match gdbArgs args with
  | .error e => .ok (.error e)
  | .ok none => .ok (.ok (wrap gdb Gdb.newThread w))
  | .ok (some (s, onlyFuns)) =>
    if onlyFuns = 0 then do
      let r ← Gdb.parseThread s
      .ok (made gdb w r)
    else .ok (.ok (wrap gdb (Gdb.parseFuns s) w))

/-- `sr_py_java_thread_new` (python/py_java_thread.c:109-146). -/
def javaNew (args : List Value) (w : World JavaFrame) : Out (Except Exc (Obj JavaThread × World JavaFrame)) :=
  match args with
  | [] => .ok (.ok (wrap java {} w))
  | [s] =>
    match textArg s with
    | .error e => .ok (.error e)
    | .ok s => do
      let r ← Text.Java.parseThread s
      .ok (made java w r)
  | _ => .ok (.error .type)

/-- `sr_py_core_thread_new` (python/py_core_thread.c:93-109): the arguments are not looked at. The member `id` of the new C thread is not
set (lib/core_thread.c:58-72) and not visible in Python; here it is 0. -/
def coreNew (_ : List Value) (w : World Normalize.CoreFrame) : Out (Except Exc (Obj CoreThread × World Normalize.CoreFrame)) :=
  .ok (.ok (wrap core {} w))

/-- `sr_py_core_thread_str` (python/py_core_thread.c:123-134). -/
def coreStr (o : Obj CoreThread) : Str := c!"Thread with " ++ natDec o.items.length ++ c!" frames"

/-- `sr_py_gdb_thread_str` (python/py_gdb_thread.c:169-181). -/
def gdbStr (o : Obj GdbThread) : Str := c!"Thread #" ++ natDec o.info.number ++ c!" with " ++ natDec o.items.length ++ c!" frames"

/-- `sr_py_java_thread_str` (python/py_java_thread.c:160-174). -/
def javaStr (o : Obj JavaThread) : Str :=
  c!"Thread" ++ (match o.info.name with | none => [] | some n => ' ' :: n) ++ c!" with " ++ natDec o.items.length ++ c!" frames"

/-- `sr_py_gdb_thread_dup` (python/py_gdb_thread.c:184-207), `sr_py_java_thread_dup` (python/py_java_thread.c:177-198), `sr_py_core_thread_dup`
(python/py_core_thread.c:136-158): the copy, the
object afterwards, and the memory. -/
def dup (k : Kind T F) (o : Obj T) (w : World F) : Out (Except Exc (Obj T × Obj T × World F)) := do
  match ← method k id o w with
  | .error e => .ok (.error e)
  | .ok (t, o) => .ok (.ok ((wrap k t w).1, o, (wrap k t w).2))

/-- `sr_py_gdb_thread_quality_counts` (python/py_gdb_thread.c:209-219). -/
def gdbCounts (o : Obj GdbThread) (w : World GdbFrame) : Out (Except Exc ((Nat × Nat) × Obj GdbThread)) :=
  method gdb (fun t => Crash.qualityCounts t.frames (0, 0)) o w

/-- `sr_py_java_thread_quality_counts` (python/py_java_thread.c:200-210). -/
def javaCounts (o : Obj JavaThread) (w : World JavaFrame) : Out (Except Exc ((Nat × Nat) × Obj JavaThread)) :=
  method java (fun t => Crash.javaQualityCounts t.frames (0, 0)) o w

/-- `sr_py_gdb_thread_quality` (python/py_gdb_thread.c:221-229). The quotient is exact here; for its rounding see `Verif.Crash.Float`. -/
def gdbQuality (o : Obj GdbThread) (w : World GdbFrame) : Out (Except Exc (Rat × Obj GdbThread)) := method gdb Crash.threadQuality o w

/-- `sr_py_java_thread_quality` (python/py_java_thread.c:212-220). -/
def javaQuality (o : Obj JavaThread) (w : World JavaFrame) : Out (Except Exc (Rat × Obj JavaThread)) := method java Crash.javaThreadQuality o w

/-- What is written for a frame (lib/java_thread.c:353-357). -/
def javaFun (f : JavaFrame) : Str :=
  match f.name with
  | none => []
  | some n => n ++ ['\n']

/-- `sr_java_thread_format_funs` (lib/java_thread.c:345-363). -/
def javaFuns (t : JavaThread) : Str := t.frames.flatMap javaFun

/-- `sr_py_gdb_thread_format_funs` (python/py_gdb_thread.c:231-235): the frames are not linked before. -/
def gdbFormat (o : Obj GdbThread) (w : World GdbFrame) : Out Str := do
  let t ← linked gdb o w
  .ok (Gdb.formatFuns t)

/-- `sr_py_java_thread_format_funs` (python/py_java_thread.c:222-226). -/
def javaFormat (o : Obj JavaThread) (w : World JavaFrame) : Out Str := do
  let t ← linked java o w
  .ok (javaFuns t)

end Satyr.Py.Threads
