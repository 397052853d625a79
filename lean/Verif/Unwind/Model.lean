import Verif.Crash.Model
import Verif.Json.CoreModel
/-!
# Model of unwinding (lib/core_unwind.c, lib/core_unwind_elfutils.c, lib/core_unwind_libunwind.c)

What the libraries libdwfl, libelf and libunwind deliver is the input of the model. Errors are texts in the program; here only
whether an error message is set is kept.
-/
namespace Satyr.Unwind
open Satyr.CStr Satyr.Normalize Satyr.Frames

/-- What libdwfl knows of a module: its start, the bytes of its build id (none if there is none), its name and file name, and the
symbol at an address. `dwfl_module_info` has no name if it fails. -/
structure Module where
  start : Nat := 0
  buildId : List UInt8 := []
  name : Option Str := none
  file : Option Str := none
  symbol : Nat → Option Str := fun _ => none

/-- The modules by address (`dwfl_addrmodule`), and the demangler (`__cxa_demangle`). -/
structure Modules where
  at' : Nat → Option Module := fun _ => none
  demangle : Str → Option Str := fun _ => none

/-- `sr_demangle_symbol` (lib/utils.c:712-728). -/
def demangle (ms : Modules) (s : Str) : Option Str := if startsWith s c!"_Z" then ms.demangle s else none

/-- Subtraction of 64-bit numbers. -/
def minus (a b : Nat) : Nat := (a + 2 ^ 64 - b) % 2 ^ 64

/-- `resolve_frame` (lib/core_unwind.c:291-339). -/
def resolveFrame (ms : Modules) (ip : Nat) (minusOne : Bool) : CoreFrame :=
  let frame : CoreFrame := { Json.Core.newFrame with address := ip, buildIdOffset := ip }
  let adjusted := minus ip (if minusOne then 1 else 0)
  match ms.at' adjusted with
  | none => frame
  | some m =>
    let frame := if m.buildId ≠ [] then { frame with buildId := some (bin2hex m.buildId) } else frame
    let frame := match m.name with
      | none => frame
      | some n =>
        { frame with
            buildIdOffset := minus ip m.start
            fileName := some (m.file.getD n) }
    match m.symbol adjusted with
    | none => frame
    | some s => { frame with functionName := some ((demangle ms s).getD s) }

/-! ## Signal -/

/-- A note: its type is `NT_PRSTATUS`; `n_namesz`; the name and the size of the descriptor (`none` if they cannot be read), and
`pr_cursig` in it. -/
structure Note where
  prstatus : Bool := false
  nameSize : Nat := 0
  name : Option Str := none
  descSize : Option Nat := none
  signal : Int := 0
  deriving DecidableEq, Repr

/-- The notes of a program header of type `PT_NOTE`; `none` if they cannot be read or it has another type. -/
abbrev NoteSegment := Option (List Note)

/-- The loop over the notes of one program header (lib/core_unwind.c:377-414): `size` is `sizeof(struct elf_prstatus)`. -/
def noteSignal (size : Nat) : List Note → Int
  | [] => 0
  | n :: l =>
    if n.prstatus = false ∨ n.nameSize < 5 then noteSignal size l
    else
      match n.name, n.descSize with
      | some name, some desc =>
        if name.length < 5 then noteSignal size l
        else if name.take 5 ≠ c!"CORE\x00" then noteSignal size l
        else if desc ≠ size then noteSignal size l
        else if n.signal ≠ 0 then n.signal
        else noteSignal size l
      | _, _ => noteSignal size l

/-- `get_signal_number` (lib/core_unwind.c:341-421); the program headers are `none` if they cannot be read. -/
def signalFrom (size : Nat) : List NoteSegment → Int
  | [] => 0
  | none :: l => signalFrom size l
  | some notes :: l => if noteSignal size notes ≠ 0 then noteSignal size notes else signalFrom size l

def signalNumber (size : Nat) (segments : Option (List NoteSegment)) : Int :=
  match segments with
  | none => 0
  | some l => signalFrom size l

/-- The assignment of a `short` to `uint16_t signal`. -/
def toSignal (n : Int) : Nat := (n % 2 ^ 16).toNat

/-! ## Unwinding with libdwfl -/

/-- `CORE_STACKTRACE_FRAME_LIMIT` (lib/internal_unwind.h:63). -/
def frameLimit : Nat := 256

/-- How `dwfl_thread_getframes` ends after the frames: `0` at the end of the stack, or `-1` with an error. -/
inductive Ending | finished | broken
  deriving DecidableEq, Repr

/-- A thread: its id, the program counter of each frame (`none` if `dwfl_frame_pc` fails) with the flag that it is one too high,
and how the unwinding ends. -/
structure Thread where
  id : Int := 0
  frames : List (Option (Nat × Bool)) := []
  ending : Ending := .finished
  deriving DecidableEq, Repr

/-- The result of the iteration over the frames: all frames are seen, `__libc_start_main` is reached, or the program counter
cannot be determined. -/
inductive Seen | all | stopped | aborted
  deriving DecidableEq, Repr

/-- `dwfl_thread_getframes` with `frame_callback` (lib/core_unwind_elfutils.c:57-86): the frames and the result. -/
def getFrames (ms : Modules) : List (Option (Nat × Bool)) → List CoreFrame × Seen
  | [] => ([], .all)
  | none :: _ => ([], .aborted)
  | some (pc, minusOne) :: l =>
    let f := resolveFrame ms pc minusOne
    if f.functionName = some c!"__libc_start_main" then ([], .stopped)
    else
      let r := getFrames ms l
      (f :: r.1, r.2)

/-- `truncate_long_thread` (lib/core_unwind_elfutils.c:88-99): the loop removes the first frame while there are too many. -/
def truncate : List CoreFrame → List CoreFrame
  | [] => []
  | f :: l => if (f :: l).length > frameLimit then truncate l else f :: l

/-- `unwind_thread` (lib/core_unwind_elfutils.c:101-155): `none` is `DWARF_CB_ABORT` with a message. The check for threads
without frames never applies: `error_msg` is not NULL there. -/
def unwindThread (ms : Modules) (t : Thread) : Option CoreThread :=
  match getFrames ms t.frames with
  | (_, .aborted) => none
  | (l, _) => some { id := t.id, frames := truncate l }

/-- `dwfl_getthreads` with `unwind_thread`. -/
def unwindThreads (ms : Modules) : List Thread → Option (List CoreThread)
  | [] => some []
  | t :: l => (unwindThread ms t).bind fun x => (unwindThreads ms l).bind fun r => some (x :: r)

/-- A core dump: can it be opened (`open_coredump`), can libdwfl attach to it, the modules, the threads, whether `dwfl_getthreads`
fails after the last thread, and the notes. -/
structure Core where
  opens : Bool := true
  attaches : Bool := true
  modules : Modules := {}
  threads : List Thread := []
  ending : Ending := .finished
  notes : Option (List NoteSegment) := some []
  prstatusSize : Nat := 336

/-- `sr_parse_coredump` (lib/core_unwind_elfutils.c:157-217): the stack trace, and whether an error message is set. -/
def parseCoredump (c : Core) (executable : Str) : Option CoreTrace × Bool :=
  if c.opens = false then (none, true)
  else if c.attaches = false then (none, true)
  else
    match unwindThreads c.modules c.threads with
    | none => (none, true)
    | some threads =>
      if c.ending = .broken then (none, true)
      else
        (some { signal := toSignal (signalNumber c.prstatusSize c.notes)
                executable := some executable
                crashThread := if threads = [] then none else some 0
                threads := threads }, false)

/-- `sr_core_stacktrace_from_core_hook_generate` (lib/core_unwind_elfutils.c:308-374): `attaches` tells whether
`dwfl_linux_proc_attach` succeeds. -/
def fromCoreHook (ms : Modules) (attaches : Bool) (t : Thread) (executable : Option Str) (signum : Int) :
    Option CoreTrace × Bool :=
  if attaches = false then (some { threads := [{ id := t.id }] }, true)
  else
    match getFrames ms t.frames with
    | (_, .aborted) => (none, true)
    | (l, seen) =>
      if seen = .all ∧ t.ending = .broken then (none, true)
      else
        (some { signal := if signum > 0 then toSignal signum else 0
                executable := executable
                crashThread := some 0
                threads := [{ id := t.id, frames := truncate l }]
                onlyCrashThread := true }, false)

/-! ## From the output of gdb -/

/-- The first loop over the frames of a thread (lib/core_unwind.c:456-470): the number of frames that are left out. `nframes` is
what is left of the limit. -/
def skipCount : Nat → List GdbFrame → Nat
  | _, [] => 0
  | nframes, f :: l =>
    if f.signalHandlerCalled then skipCount nframes l
    else
      match nframes with
      | 0 => 1 + skipCount 0 l
      | n + 1 => skipCount n l

/-- The second loop (lib/core_unwind.c:472-484). -/
def gdbFrames (ms : Modules) : List GdbFrame → List CoreFrame
  | [] => []
  | f :: l => if f.signalHandlerCalled then gdbFrames ms l else resolveFrame ms f.address false :: gdbFrames ms l

/-- The thread that is made of a thread (lib/core_unwind.c:454-484). The member `id` of a new thread is not initialised
(`sr_core_thread_init`, lib/core_thread.c:66-72) and not set afterwards; it is 0 here. -/
def gdbThread (ms : Modules) (t : GdbThread) : CoreThread :=
  { id := 0, frames := gdbFrames ms (t.frames.drop (skipCount frameLimit t.frames)) }

/-- `sr_core_stacktrace_from_gdb` (lib/core_unwind.c:423-500) after the gdb stack trace is parsed; `executable` is what
`realpath` gives. The position of the crash thread is the one of the thread found in the gdb stack trace. -/
def fromGdb (c : Core) (s : GdbTrace) (executable : Option Str) : CoreTrace where
  signal := toSignal (signalNumber c.prstatusSize c.notes)
  executable := executable
  crashThread := Crash.findCrashThread s
  threads := s.threads.map (gdbThread c.modules)

/-! ## Unwinding with libunwind -/

/-- A step of libunwind: the instruction pointer, and the name that `unw_get_proc_name` knows. -/
structure Step where
  ip : Nat
  procName : Option Str := none
  deriving DecidableEq, Repr

/-- A thread for libunwind: does `unw_init_remote` succeed, and the steps until `unw_step` ends. -/
structure UThread where
  starts : Bool := true
  steps : List Step := []
  signal : Int := 0
  deriving DecidableEq, Repr

/-- The loop of `unwind_thread` (lib/core_unwind_libunwind.c:52-100), at most `count` frames. -/
def unwindSteps (ms : Modules) : Nat → List Step → List CoreFrame
  | 0, _ => []
  | _ + 1, [] => []
  | count + 1, s :: l =>
    if s.ip = 0 then []
    else
      let f := resolveFrame ms s.ip false
      let f := if f.functionName = none then { f with functionName := s.procName } else f
      if f.functionName = some c!"__libc_start_main" then [f]
      else f :: unwindSteps ms count l

/-- The loop over the threads (lib/core_unwind_libunwind.c:170-184): `none` if one of them fails. The member `id` is not initialised;
it is 0 here. -/
def unwindUThreads (ms : Modules) : List UThread → Option (List CoreThread)
  | [] => some []
  | t :: l =>
    if t.starts = false then none
    else (unwindUThreads ms l).bind fun r => some ({ id := 0, frames := unwindSteps ms 999 t.steps } :: r)

/-- `get_signal_number_libunwind` (lib/core_unwind_libunwind.c:112-127). -/
def firstSignal : List UThread → Int
  | [] => 0
  | t :: l => if t.signal ≠ 0 then t.signal else firstSignal l

/-- `sr_parse_coredump` (lib/core_unwind_libunwind.c:129-206), from the successful opening of the core dump on (`ui`): the
assignments to the stack trace after the loop are made even if it is NULL. The `Bool` tells whether an error message is set;
a thread without frames sets one. -/
def parseLibunwind (ms : Modules) (threads : List UThread) (executable : Option Str) : Out (Option CoreTrace × Bool) :=
  match unwindUThreads ms threads with
  | none => .ub
  | some l =>
    .ok (some { signal := toSignal (firstSignal threads)
                executable := executable
                crashThread := if l = [] then none else some 0
                threads := l }, l.any fun t => t.frames.isEmpty)

end Satyr.Unwind
