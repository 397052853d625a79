import Verif.Unwind.Model
/-!
# Model of opening core dumps and stopping processes (lib/core_unwind.c, lib/core_unwind_elfutils.c)

What is held open is part of the state: file descriptors, handles of libelf and libdwfl, memory of the program, and the process
that is traced. What the calls of libelf, libdwfl and of the kernel deliver is the input. Releasing something that is not held, or
that is still in use by something else that is held, is undefined behaviour. Memory allocation succeeds, also in `dwfl_begin`.
-/
namespace Satyr.Unwind
open Satyr.CStr Satyr.Normalize Satyr.Frames

/-- What can be held: the `core_handle` or the unwind state, a file descriptor, the ELF handle over a file descriptor, the handle
of libdwfl, the entry of a segment and the copy of its file name, and a process that is traced. -/
inductive Res
  | handle
  | fd (n : Nat)
  | elf (n : Nat)
  | dwfl
  | segment (i : Nat)
  | name (i : Nat)
  | tracee (tid : Int)
  deriving DecidableEq, Repr

structure World where
  /-- What is held. -/
  held : Res → Bool
  /-- The text that `*error_msg` points to. -/
  message : Option Str := none

/-- Acquire a resource; the caller gets one that is not held yet. -/
def World.acquire (r : Res) (w : World) : World := { w with held := fun x => w.held x || x = r }

/-- The handle of libdwfl that uses the ELF handle, the ELF handle that uses the file. -/
def usedBy : Res → Option Res
  | .fd n => some (.elf n)
  | .elf _ => some .dwfl
  | _ => none

/-- Release a resource (`close`, `elf_end`, `dwfl_end`, `g_free`). -/
def World.release (r : Res) (w : World) : Out World :=
  if w.held r = false then .ub
  else if (usedBy r).any w.held then .ub
  else .ok { w with held := fun x => w.held x && decide (x ≠ r) }

/-- `_set_error` (lib/core_unwind.c:94-105); `wanted` tells whether `error_msg` is not `NULL`. -/
def World.setError (wanted : Bool) (text : Str) (w : World) : World := if wanted then { w with message := some text } else w

/-- A module that `dwfl_getmodules` visits: whether its ELF file is found, where it starts, and its file name. -/
structure Loaded where
  elf : Bool := true
  start : Nat := 0
  file : Option Str := none
  deriving DecidableEq, Repr

/-- What the libraries deliver while a core dump is opened, with the text of the error where they fail. -/
structure OpenEnv where
  elfVersion : Bool := true
  fd : Option Nat := some 3
  elfBegin : Bool := true
  /-- `gelf_getehdr` succeeds and the type is `ET_CORE`. -/
  isCore : Bool := true
  report : Bool := true
  reportEnd : Bool := true
  modules : List Loaded := []
  /-- `dwfl_getmodules` does not return `-1`. -/
  getModules : Bool := true
  /-- `elf_errmsg(-1)`, `strerror(errno)`, `dwfl_errmsg(-1)`. -/
  elfError : Str := []
  sysError : Str := []
  dwflError : Str := []

structure Handle where
  fd : Nat
  segments : List (Nat × Str) := []
  deriving DecidableEq, Repr

/-- `touch_module` (lib/core_unwind.c:175-201) for all modules (warnings are not modelled): `k` segments are there already. -/
def touchModules : List Loaded → Nat → World → List (Nat × Str) × World
  | [], _, w => ([], w)
  | m :: l, k, w =>
    if m.elf = false then touchModules l k w
    else
      match m.file with
      | none => touchModules l k w
      | some f =>
        let (r, w) := touchModules l (k + 1) ((w.acquire (.segment k)).acquire (.name k))
        ((m.start, f) :: r, w)

/-- `set_error_elf`, `set_error_dwfl` (lib/internal_unwind.h:36-39). -/
def elfMessage (func file err : Str) : Str := func ++ c!" failed for '" ++ file ++ c!"': " ++ err
def dwflMessage (func err : Str) : Str := func ++ c!" failed: " ++ err

/-- The labels `fail_free`, `fail_close`, `fail_elf`, `fail_dwfl` of `open_coredump` (lib/core_unwind.c:278-288). -/
def failFree (w : World) : Out (Option Handle × World) := do
  let w ← w.release .handle
  pure (none, w)

def failClose (n : Nat) (w : World) : Out (Option Handle × World) := do
  let w ← w.release (.fd n)
  failFree w

def failElf (n : Nat) (w : World) : Out (Option Handle × World) := do
  let w ← w.release (.elf n)
  failClose n w

def failDwfl (n : Nat) (w : World) : Out (Option Handle × World) := do
  let w ← w.release .dwfl
  failElf n w

/-- `open_coredump` (lib/core_unwind.c:203-289). -/
def openCoredump (e : OpenEnv) (wanted : Bool) (file : Str) (w : World) : Out (Option Handle × World) :=
  let w := w.acquire .handle
  if e.elfVersion = false then failFree (w.setError wanted (elfMessage c!"elf_version" file e.elfError))
  else
    match e.fd with
    | none => failFree (w.setError wanted (c!"Unable to open '" ++ file ++ c!"': " ++ e.sysError))
    | some n =>
      let w := w.acquire (.fd n)
      if e.elfBegin = false then failClose n (w.setError wanted (elfMessage c!"elf_begin" file e.elfError))
      else
        let w := w.acquire (.elf n)
        if e.isCore = false then failElf n (w.setError wanted (c!"File '" ++ file ++ c!"' is not a coredump"))
        else
          let w := w.acquire .dwfl
          if e.report = false then failDwfl n (w.setError wanted (dwflMessage c!"dwfl_core_file_report" e.dwflError))
          else if e.reportEnd = false then failDwfl n (w.setError wanted (dwflMessage c!"dwfl_report_end" e.dwflError))
          else
            let (segments, w) := touchModules e.modules 0 w
            if e.getModules = false then failDwfl n (w.setError wanted (dwflMessage c!"dwfl_getmodules" e.dwflError))
            else if segments = [] then
              failDwfl n (if w.message = none then
                w.setError wanted (c!"No segments found in coredump '" ++ file ++ c!"'") else w)
            else .ok (some { fd := n, segments := segments }, w)

/-- The loop of `core_handle_free` over the segments: the `i`-th first. -/
def freeSegments : List (Nat × Str) → Nat → World → Out World
  | [], _, w => .ok w
  | _ :: l, i, w => do
    let w ← w.release (.name i)
    let w ← w.release (.segment i)
    freeSegments l (i + 1) w

/-- `core_handle_free` (lib/core_unwind.c:107-130) of a handle that `open_coredump` returned. -/
def freeHandle (h : Handle) (w : World) : Out World := do
  let w ← freeSegments h.segments 0 w
  let w ← w.release .dwfl
  let w ← w.release (.elf h.fd)
  let w ← if h.fd > 0 then w.release (.fd h.fd) else pure w
  w.release .handle

/-- The text in `thread_arg.error_msg`: the frame for which `dwfl_frame_pc` failed. -/
def threadMessage (e : OpenEnv) : Str := dwflMessage c!"dwfl_frame_pc" e.dwflError

/-- `sr_parse_coredump` (lib/core_unwind_elfutils.c:157-217): the stack trace, and what is held at the end. The core dump `c` is
used from the call of `dwfl_core_file_attach` on. The memory of the stack trace is not tracked here. -/
def parseCoredumpIn (e : OpenEnv) (c : Core) (wanted : Bool) (file executable : Str) (w : World) :
    Out (Option CoreTrace × World) := do
  let w := if wanted then { w with message := none } else w
  let (h, w) ← openCoredump e wanted file w
  match h with
  | none => pure (none, w)
  | some h =>
    if c.attaches = false then
      let w ← freeHandle h (w.setError wanted (dwflMessage c!"dwfl_core_file_attach" e.dwflError))
      pure (none, w)
    else
      match unwindThreads c.modules c.threads with
      | none =>
        let w ← freeHandle h (w.setError wanted (threadMessage e))
        pure (none, w)
      | some threads =>
        if c.ending = .broken then
          let w ← freeHandle h (w.setError wanted (dwflMessage c!"dwfl_getthreads" e.dwflError))
          pure (none, w)
        else
          let w ← freeHandle h w
          pure (some { signal := toSignal (signalNumber c.prstatusSize c.notes)
                       executable := some executable
                       crashThread := if threads = [] then none else some 0
                       threads := threads }, w)

/-! ## Stopping a process -/

/-- What the kernel and libdwfl deliver while a process is stopped; `wait` is the result of `waitpid` (`none` for `-1`), with the
status. -/
structure HookEnv where
  report : Bool := true
  reportEnd : Bool := true
  seize : Bool := true
  close : Bool := true
  wait : Option Int := none
  status : Int := 0
  sysError : Str := []
  dwflError : Str := []

/-- The conversion of an `int` to `unsigned`. -/
def unsigned (n : Int) : Nat := (n % 2 ^ 32).toNat

/-- `WIFSTOPPED`: the low eight bits are `0x7f`. -/
def wifstopped (status : Int) : Bool := status % 256 = 0x7f

/-- `sr_core_stacktrace_unwind_state_free` (lib/core_unwind_elfutils.c:223-236) of a state whose `dwfl` is set. -/
def freeState (w : World) : Out World := do
  let w ← w.release .dwfl
  w.release .handle

def failHook (w : World) : Out (Bool × World) := do
  let w ← freeState w
  pure (false, w)

/-- `sr_core_stacktrace_from_core_hook_prepare` (lib/core_unwind_elfutils.c:238-306): whether a state is returned. Standard input is
open if descriptor 0 is held. -/
def prepareHook (e : HookEnv) (wanted : Bool) (tid : Int) (w : World) : Out (Bool × World) :=
  let w := if wanted then { w with message := none } else w
  let w := (w.acquire .handle).acquire .dwfl
  if e.report = false then failHook (w.setError wanted (dwflMessage c!"dwfl_linux_proc_report" e.dwflError))
  else if e.reportEnd = false then failHook (w.setError wanted (dwflMessage c!"dwfl_report_end" e.dwflError))
  else if e.seize = false then
    failHook (w.setError wanted (c!"PTRACE_SEIZE (tid " ++ natDec (unsigned tid) ++ c!") failed: " ++ e.sysError))
  else
    let w := w.acquire (.tracee tid)
    if e.close = false then failHook (w.setError wanted (c!"Failed to close stdin: " ++ e.sysError))
    else
      let w : World := { w with held := fun x => w.held x && decide (x ≠ .fd 0) }
      match e.wait with
      | none => failHook (w.setError wanted (c!"waitpid failed: " ++ e.sysError))
      | some got =>
        if got ≠ tid then
          failHook (w.setError wanted (c!"waitpid returned " ++ natDec (unsigned got) ++ c!" but " ++
            natDec (unsigned tid) ++ c!" was expected"))
        else if wifstopped e.status = false then
          failHook (w.setError wanted (c!"waitpid returned 0x" ++ natHex (unsigned e.status) ++
            c!" but WIFSTOPPED was expected"))
        else if e.status / 256 ≠ 5 + 6 * 256 then
          failHook (w.setError wanted (c!"waitpid returned 0x" ++ natHex (unsigned e.status) ++
            c!" but (status >> 8) == (SIGTRAP | (PTRACE_EVENT_EXIT << 8)) was expected"))
        else .ok (true, w)

/-- `sr_core_stacktrace_from_core_hook` (lib/core_unwind_elfutils.c:376-386) with
`sr_core_stacktrace_from_core_hook_generate` (lines 308-373): the stack trace, whether the second part set an error message (its
text is not modelled), and what is held at the end. -/
def fromHookIn (e : HookEnv) (ms : Modules) (attaches : Bool) (t : Thread) (wanted : Bool) (executable : Option Str)
    (signum : Int) (w : World) : Out (Option CoreTrace × Bool × World) := do
  let (ready, w) ← prepareHook e wanted t.id w
  if ready = false then pure (none, true, w)
  else
    let r := fromCoreHook ms attaches t executable signum
    let w ← freeState w
    pure (r.1, r.2, w)

end Satyr.Unwind
