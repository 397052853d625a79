import Verif.Py.Lists
import Verif.Short.Model
/-!
# Model of the Python class GdbStacktrace (python/py_gdb_stacktrace.c)

A frame object in Python owns a C frame. A thread object has a Python list of frame objects, and its C thread a linked list of C
frames; a stack trace has a Python list of thread objects, and its C stack trace a linked list of C threads. Here the addresses of C
frames, the reference counts of objects and which C frames are still allocated are explicit; the numbers of a thread and the
shared libraries are values. The type checks of the lists are left out (C104, C106). A Python list of threads is not referenced from
elsewhere.
-/
namespace Satyr.Py.Gdb
open Satyr.CStr Satyr.Normalize Satyr.Frames

/-- Addresses of C frames, and Python objects. -/
local notation "Address" => Nat
local notation "Ref" => Nat

/-- A thread: the object, the members `number` and `tid` of the C thread, the Python list of frame objects, and the linked list of
C frames. -/
structure ThreadObj where
  obj : Ref
  number : Nat := 0
  tid : Nat := 0
  items : List Ref := []
  chain : List Address := []
  deriving DecidableEq, Repr

/-- The memory, and a stack trace object in it. -/
structure World where
  /-- The allocated C frames. -/
  frame : Address → Option GdbFrame
  /-- The C frame of a frame object. -/
  cOf : Ref → Address
  refs : Ref → Int
  /-- The next address and the next object that are unused. -/
  ptrs : Address
  objs : Ref
  /-- The Python list of threads, and the linked list of C threads. -/
  threads : List ThreadObj := []
  chain : List ThreadObj := []
  /-- The Python list of libraries, and the linked list. -/
  libs : List (Ref × Sharedlib) := []
  clibs : List Sharedlib := []
  crash : Option GdbFrame := none
  crashTid : Nat := 0
  /-- The attribute `crashframe`; none is `None`. -/
  crashframe : Option Ref := none

/-- Exceptions. -/
inductive Exc | lookup | overflow
  deriving DecidableEq, Repr

/-! ## Memory -/

/-- Reading a C frame. -/
def World.read (w : World) (p : Address) : Out GdbFrame :=
  match w.frame p with
  | none => .ub
  | some f => .ok f

def World.readAll (w : World) : List Address → Out (List GdbFrame)
  | [] => .ok []
  | p :: l => do
    let f ← w.read p
    let r ← w.readAll l
    .ok (f :: r)

/-- `sr_gdb_frame_free` (lib/gdb_frame.c:91-101). -/
def World.free (w : World) (p : Address) : Out World :=
  match w.frame p with
  | none => .ub
  | some _ => .ok { w with frame := update w.frame p none }

def World.freeAll (w : World) : List Address → Out World
  | [] => .ok w
  | p :: l => do
    let w ← w.free p
    w.freeAll l

/-- A new C frame. -/
def World.alloc (w : World) (f : GdbFrame) : Address × World :=
  (w.ptrs, { w with frame := update w.frame w.ptrs (some f), ptrs := w.ptrs + 1 })

def World.allocAll (w : World) : List GdbFrame → List Address × World
  | [] => ([], w)
  | f :: l =>
    let (p, w) := w.alloc f
    let (r, w) := w.allocAll l
    (p :: r, w)

/-- A new object with `n` references. -/
def World.newObject (w : World) (p : Address) (n : Int) : Ref × World :=
  (w.objs, { w with cOf := update w.cOf w.objs p, refs := update w.refs w.objs n, objs := w.objs + 1 })

/-- `frames_to_python_list` (python/py_base_thread.c:158-186): an object is referenced by its creation and by the list. -/
def World.newObjects (w : World) : List Address → List Ref × World
  | [] => ([], w)
  | p :: l =>
    let (x, w) := w.newObject p 2
    let (r, w) := w.newObjects l
    (x :: r, w)

/-- `Py_DECREF` of a frame object, with `sr_py_gdb_frame_free` (python/py_gdb_frame.c:208-214). -/
def World.decref (w : World) (x : Ref) : Out World :=
  if w.refs x ≤ 0 then .ub
  else if w.refs x = 1 then ({ w with refs := update w.refs x 0 } : World).free (w.cOf x)
  else .ok { w with refs := update w.refs x (w.refs x - 1) }

def World.decrefAll (w : World) : List Ref → Out World
  | [] => .ok w
  | x :: l => do
    let w ← w.decref x
    w.decrefAll l

/-- `Py_DECREF` of a thread object, with `sr_py_gdb_thread_free` (python/py_gdb_thread.c:158-167), which drops the list of frames. -/
def World.dropThread (w : World) (t : ThreadObj) : Out World :=
  if w.refs t.obj ≤ 0 then .ub
  else if w.refs t.obj = 1 then ({ w with refs := update w.refs t.obj 0 } : World).decrefAll t.items
  else .ok { w with refs := update w.refs t.obj (w.refs t.obj - 1) }

/-- `Py_DECREF(stacktrace->threads)`: the list drops its elements. -/
def World.dropThreads (w : World) : List ThreadObj → Out World
  | [] => .ok w
  | t :: l => do
    let w ← w.dropThread t
    w.dropThreads l

/-! ## Helpers of the methods -/

/-- `frames_prepare_linked_list` (python/py_base_thread.c:115-156): an empty list leaves the linked list as it is. -/
def ThreadObj.prepare (cOf : Ref → Address) (t : ThreadObj) : ThreadObj :=
  { t with chain := if t.items = [] then t.chain else t.items.map cOf }

/-- `gdb_prepare_linked_lists` (python/py_gdb_stacktrace.c:141-184): an empty list leaves the linked list as it is. -/
def World.prepare (w : World) : World :=
  let ts := w.threads.map (ThreadObj.prepare w.cOf)
  { w with
      threads := ts
      chain := if ts = [] then w.chain else ts
      clibs := if w.libs = [] then w.clibs else w.libs.map Prod.snd }

/-- The copies that `sr_gdb_thread_dup` makes of a list of threads (lib/gdb_thread.c:99-118). -/
def World.dupThreads (w : World) : List ThreadObj → Out (List ThreadObj × World)
  | [] => .ok ([], w)
  | t :: l => do
    let fs ← w.readAll t.chain
    let (ps, w) := w.allocAll fs
    let (r, w) ← w.dupThreads l
    .ok ({ t with chain := ps } :: r, w)

/-- `threads_to_python_list` (python/py_base_stacktrace.c:228-257), `thread_linked_list_to_python_list`
(python/py_gdb_stacktrace.c:186-214): new objects for the threads and their frames. -/
def World.newThreads (w : World) : List ThreadObj → List ThreadObj × World
  | [] => ([], w)
  | t :: l =>
    let (x, w) := w.newObject 0 2
    let (is, w) := w.newObjects t.chain
    let (r, w) := w.newThreads l
    ({ t with obj := x, items := is } :: r, w)

/-- `stacktrace_rebuild_thread_python_list` (python/py_gdb_stacktrace.c:245-259): without threads `sr_gdb_thread_dup` reads the null
pointer. -/
def World.rebuild (w : World) : Out World :=
  if w.chain = [] then .ub
  else do
    let (ts, w) ← w.dupThreads w.chain
    let w ← w.dropThreads w.threads
    let (ts, w) := w.newThreads ts
    .ok { w with threads := ts, chain := ts }

/-- The frames of a linked list of threads. -/
def World.readThreads (w : World) : List ThreadObj → Out (List GdbThread)
  | [] => .ok []
  | t :: l => do
    let fs ← w.readAll t.chain
    let r ← w.readThreads l
    .ok ({ number := t.number, tid := t.tid, frames := fs } :: r)

/-- The C stack trace. -/
def World.readTrace (w : World) : Out GdbTrace := do
  let ts ← w.readThreads w.chain
  .ok { threads := ts, crash := w.crash, libs := w.clibs, crashTid := w.crashTid }

/-! ## Methods -/

/-- `sr_gdb_thread_remove_frames_below_n` (lib/gdb_thread.c:251-281) of the threads (`sr_gdb_stacktrace_limit_frame_depth`,
lib/gdb_stacktrace.c:315-326): the links of the first frames are read, the other frames are freed. -/
def World.cutThreads (w : World) (depth : Nat) : List ThreadObj → Out (List ThreadObj × World)
  | [] => .ok ([], w)
  | t :: l => do
    let _ ← w.readAll (t.chain.take depth)
    let w ← w.freeAll (t.chain.drop depth)
    let (r, w) ← w.cutThreads depth l
    .ok ({ t with chain := t.chain.take depth } :: r, w)

/-- `sr_py_gdb_stacktrace_limit_frame_depth` (python/py_gdb_stacktrace.c:429-446). -/
def limitFrameDepth (depth : Int) (w : World) : Out (Except Exc Unit × World) :=
  let w := w.prepare
  if depth ≤ 0 then .abort
  else do
    let (ts, w) ← w.cutThreads depth.toNat w.chain
    let w ← ({ w with chain := ts } : World).rebuild
    .ok (.ok (), w)

/-- The C frames get new values. -/
def World.writeAll (w : World) : List Address → List GdbFrame → World
  | p :: ps, f :: fs => ({ w with frame := update w.frame p (some f) } : World).writeAll ps fs
  | _, _ => w

/-- `sr_gdb_stacktrace_set_libnames` (lib/gdb_stacktrace.c:563-572). -/
def World.nameThreads (w : World) : List ThreadObj → Out World
  | [] => .ok w
  | t :: l => do
    let fs ← w.readAll t.chain
    let fs ← Satyr.Gdb.setLibnames w.clibs fs
    (w.writeAll t.chain fs).nameThreads l

/-- `sr_py_gdb_stacktrace_set_libnames` (python/py_gdb_stacktrace.c:505-518). -/
def setLibnames (w : World) : Out (Except Exc Unit × World) := do
  let w := w.prepare
  let w ← w.nameThreads w.chain
  let w ← w.rebuild
  .ok (.ok (), w)

/-- The C threads of a new stack trace. -/
def World.allocThreads (w : World) : List GdbThread → List ThreadObj × World
  | [] => ([], w)
  | t :: l =>
    let (ps, w) := w.allocAll t.frames
    let (r, w) := w.allocThreads l
    ({ obj := 0, number := t.number, tid := t.tid, chain := ps } :: r, w)

/-- `sr_py_gdb_stacktrace_normalize` (python/py_gdb_stacktrace.c:520-546): a copy is normalized, and its threads are taken over. -/
def normalize (w : World) : Out (Except Exc Unit × World) := do
  let w := w.prepare
  let s ← w.readTrace
  let s ← Crash.normalizeTrace s
  let w ← w.dropThreads w.threads
  let (ts, w) := w.allocThreads s.threads
  let (ts, w) := w.newThreads ts
  .ok (.ok (), { w with threads := ts, chain := ts, crash := s.crash, crashTid := s.crashTid })

/-- `sr_py_gdb_stacktrace_find_crash_frame` (python/py_gdb_stacktrace.c:392-427): the new object has one reference, but both the
caller and the stack trace keep it. -/
def findCrashFrame (w : World) : Out (Except Exc Ref × World) := do
  let w := w.prepare
  let s ← w.readTrace
  match ← Short.crashFrame s with
  | none => .ok (.error .lookup, w)
  | some f =>
    let (p, w) := w.alloc f
    let (x, w) := w.newObject p 1
    let w ← ({ w with crashframe := some x } : World).rebuild
    .ok (.ok x, w)

/-- `sr_py_gdb_stacktrace_to_short_text` (python/py_gdb_stacktrace.c:548-574). -/
def toShortText (max : Int) (w : World) : Out (Except Exc Str × World) := do
  let w := w.prepare
  let s ← w.readTrace
  match ← Short.gdbText s max with
  | none => .ok (.error .lookup, w)
  | some text =>
    let w ← w.rebuild
    .ok (.ok text, w)

/-- Reading the attribute `crashframe` (a member of type `T_OBJECT_EX`): one more reference. -/
def getCrashframe (w : World) : Out (Option Ref × World) :=
  match w.crashframe with
  | none => .ok (none, w)
  | some x =>
    if w.refs x ≤ 0 then .ub
    else .ok (some x, { w with refs := update w.refs x (w.refs x + 1) })

/-- `sr_py_gdb_stacktrace_dup` (python/py_gdb_stacktrace.c:352-390): the threads of the copy. A crash frame is passed to
`sr_py_gdb_thread_dup`, which takes it for a thread. -/
def dup (w : World) : Out (List ThreadObj × World) := do
  let w := w.prepare
  let s ← w.readTrace
  let (ts, w) := w.allocThreads s.threads
  let (ts, w) := w.newThreads ts
  match w.crashframe with
  | some _ => .ub
  | none => .ok (ts, w)

/-- The loop of `sr_py_gdb_stacktrace_find_address` over the Python list of libraries (python/py_gdb_stacktrace.c:485-500). -/
def findLoop (address : Nat) : List (Ref × Sharedlib) → Option Ref
  | [] => none
  | (x, l) :: r => if l.lo ≤ address ∧ l.hi ≥ address then some x else findLoop address r

/-- `sr_py_gdb_stacktrace_find_address` (python/py_gdb_stacktrace.c:472-503): the argument is read as `long` and used as `unsigned
long long`. The new reference to the library is not modelled. -/
def findAddress (arg : Int) (w : World) : Except Exc (Option Ref) :=
  if arg < -2 ^ 63 ∨ arg ≥ 2 ^ 63 then .error .overflow
  else
    let address := (arg % 2 ^ 64).toNat
    if address = 2 ^ 64 - 1 then .ok none else .ok (findLoop address w.libs)

/-- `sr_py_gdb_stacktrace_str` (python/py_gdb_stacktrace.c:338-349). -/
def str (w : World) : Str := c!"Stacktrace with " ++ natDec w.threads.length ++ c!" threads"

/-- `sr_py_gdb_stacktrace_new` (python/py_gdb_stacktrace.c:276-321) with a text: `s` is what the parser delivers. -/
def World.load (w : World) (s : GdbTrace) (libs : List Ref) : World :=
  let w : World := { w with libs := libs.zip s.libs, clibs := s.libs, crashframe := none }
  let (ts, w) := w.allocThreads s.threads
  let (ts, w) := w.newThreads ts
  { w with threads := ts, chain := ts, crash := s.crash, crashTid := s.crashTid }

end Satyr.Py.Gdb
