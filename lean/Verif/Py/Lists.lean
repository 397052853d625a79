import Verif.Base
/-!
# Model of the lists of frames and threads of Python objects

A thread in Python has a Python list of frames; the C structure of the thread has a linked list of the C structures of frames.
Before the library is called, the linked list is made from the Python list.
-/
namespace Satyr.Py

/-- A Python object. -/
abbrev Object := Nat
/-- A C structure, by its address; 0 is NULL. -/
abbrev CPtr := Nat

/-- The state of the interpreter and of the C structures: the reference counts; the C structure of each object (`frame->frame`,
`thread->thread`); the links of C structures (`next`); the first frame of each C thread (`frames`), and the first thread of each
C stack trace (`threads`). -/
structure State where
  refs : Object → Int
  cOf : Object → CPtr
  next : CPtr → CPtr
  frames : CPtr → CPtr
  threads : CPtr → CPtr

def update {β : Type} (f : Nat → β) (x : Nat) (v : β) : Nat → β := fun y => if y = x then v else f y

/-- `Py_INCREF`, `Py_DECREF`, `Py_XDECREF`. -/
def State.addRef (s : State) (x : Object) (n : Int) : State := { s with refs := update s.refs x (s.refs x + n) }

def State.addRefOpt (s : State) (x : Option Object) (n : Int) : State :=
  match x with
  | none => s
  | some x => s.addRef x n

def State.setNext (s : State) (p q : CPtr) : State := { s with next := update s.next p q }
def State.setFrames (s : State) (t q : CPtr) : State := { s with frames := update s.frames t q }
def State.setThreads (s : State) (t q : CPtr) : State := { s with threads := update s.threads t q }

/-- The end of the loops: the last structure gets no next one. -/
def finish (prev : Option Object) (s : State) : State :=
  match prev with
  | none => s
  | some x => (s.setNext (s.cOf x) 0).addRef x (-1)

/-- A frame becomes the first one of the thread, or the one after the previous (python/py_base_thread.c:139-144). -/
def linkFrame (thread : CPtr) (prev : Option Object) (x : Object) (s : State) : State :=
  match prev with
  | none => s.setFrames thread (s.cOf x)
  | some p => s.setNext (s.cOf p) (s.cOf x)

/-- A thread becomes the first one of the stack trace, or the one after the previous (python/py_base_stacktrace.c:207-212). -/
def linkThread (trace : CPtr) (prev : Option Object) (x : Object) (s : State) : State :=
  match prev with
  | none => s.setThreads trace (s.cOf x)
  | some p => s.setNext (s.cOf p) (s.cOf x)

/-- The loop of `frames_prepare_linked_list` (python/py_base_thread.c:122-148); `ok` is the type check; `thread` is the C
structure. False is the exception. -/
def framesLoop (ok : Object → Bool) (thread : CPtr) : List Object → Option Object → State → Bool × State
  | [], prev, s => (true, finish prev s)
  | x :: l, prev, s =>
    let s := s.addRef x 1
    if ok x = false then (false, (s.addRef x (-1)).addRefOpt prev (-1))
    else framesLoop ok thread l (some x) ((linkFrame thread prev x s).addRefOpt prev (-1))

/-- `frames_prepare_linked_list` (python/py_base_thread.c:115-156); `items` is the Python list. -/
def prepareFrames (ok : Object → Bool) (thread : CPtr) (items : List Object) (s : State) : Bool × State :=
  framesLoop ok thread items none s

/-- The loop of `threads_prepare_linked_list` (python/py_base_stacktrace.c:188-217); `framesOf` are the Python lists of frames of
the threads. -/
def threadsLoop (okThread okFrame : Object → Bool) (framesOf : Object → List Object) (trace : CPtr) :
    List Object → Option Object → State → Bool × State
  | [], prev, s => (true, finish prev s)
  | x :: l, prev, s =>
    let s := s.addRef x 1
    if okThread x = false then (false, (s.addRefOpt prev (-1)).addRefOpt prev (-1))
    else
      match prepareFrames okFrame (s.cOf x) (framesOf x) s with
      | (false, s) => (false, s)
      | (true, s) => threadsLoop okThread okFrame framesOf trace l (some x) ((linkThread trace prev x s).addRefOpt prev (-1))

/-- `threads_prepare_linked_list` (python/py_base_stacktrace.c:181-226). -/
def prepareThreads (okThread okFrame : Object → Bool) (framesOf : Object → List Object) (trace : CPtr) (items : List Object)
    (s : State) : Bool × State :=
  threadsLoop okThread okFrame framesOf trace items none s

/-- The loop of `frames_to_python_list` (python/py_base_thread.c:158-186): new objects, which are `free`, `free + 1`, ...;
each has one reference from its creation and one from the list. `n` bounds the number of frames. -/
def toList : Nat → CPtr → Object → State → Option (List Object × State)
  | 0, _, _, _ => none
  | n + 1, p, free, s =>
    if p = 0 then some ([], s)
    else
      let s := { s with refs := update s.refs free 2, cOf := update s.cOf free p }
      match toList n (s.next p) (free + 1) s with
      | some (l, s) => some (free :: l, s)
      | none => none

/-- The loop of `sr_py_multi_stacktrace_get_crash` (python/py_base_stacktrace.c:369-413): the object whose C structure is the
crash thread. -/
def getCrash (okThread : Object → Bool) (crash : CPtr) : List Object → State → Option (Option Object × State)
  | [], s => some (none, s)
  | x :: l, s =>
    if okThread x = false then none
    else if s.cOf x = crash then some (some x, s.addRef x 1)
    else getCrash okThread crash l s

end Satyr.Py
