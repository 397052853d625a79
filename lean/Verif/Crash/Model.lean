import Verif.Frames.Traces
import Verif.Frames.ThreadCmp
import Mathlib.Algebra.Order.Ring.Rat
import Mathlib.Algebra.Field.Rat
/-!
# Model of crash thread search, quality and normalization of GDB stack traces

A pointer to a thread of the stack trace is the position of that thread in the list of threads. Quality is an exact
fraction here; the C code rounds to `float`. The frame counters are unbounded here.
-/
namespace Satyr.Crash
open Satyr.CStr Satyr.Normalize Satyr.Frames Satyr.Threads

/-- `UINT32_MAX`, an unknown thread id. -/
def noTid : Nat := 4294967295

/-- The frames as objects in memory (allocation identity is the position). -/
def nodes {F : Type} (fs : List F) : List (Node F) := fs.zipIdx.map fun p => ⟨p.2, p.1⟩

/-- `thread_cmp_dont_compare_number` (lib/gdb_stacktrace.c:169-189). -/
def framesCmp (fs gs : List GdbFrame) : Int := listCmp (gdbCmp true) fs gs

/-- `enum requirement` (lib/gdb_stacktrace.c:191). -/
inductive Requirement | oneMatching | abortFunction | firstMatching
  deriving DecidableEq

/-- `same_name` (lib/gdb_stacktrace.c:221-224): the top frame has the given function name. -/
def sameName (name : Str) (t : GdbThread) : Bool :=
  match t.frames with
  | [] => false
  | f :: _ => match f.functionName with
    | none => false
    | some n => strcmp n name == 0

/-- `abort_requirement_satisfied` (lib/gdb_stacktrace.c:225-226). -/
def abortSatisfied (req : Requirement) (t : GdbThread) : Bool :=
  req != .abortFunction || (findExit gdbIsExit (nodes t.frames) none).isSome

/-- The loop of `find_crash_thread_from_crash_frame` (lib/gdb_stacktrace.c:217-254), at thread number `i`. -/
def findLoop (req : Requirement) (name : Str) : Nat → List GdbThread → Option (Nat × GdbThread) → Option (Nat × GdbThread)
  | _, [], result => result
  | i, t :: ts, result =>
    if sameName name t && abortSatisfied req t then
      match result with
      | none => findLoop req name (i + 1) ts (some (i, t))
      | some r =>
        if req ≠ .firstMatching then none
        else if framesCmp t.frames r.2.frames < 0 then findLoop req name (i + 1) ts (some (i, t))
        else findLoop req name (i + 1) ts (some r)
    else findLoop req name (i + 1) ts result

/-- `find_crash_thread_from_crash_frame` (lib/gdb_stacktrace.c:205-257). -/
def findFromCrashFrame (s : GdbTrace) (req : Requirement) : Option Nat :=
  match s.crash with
  | none => none
  | some f => match f.functionName with
    | none => none
    | some name => (findLoop req name 0 s.threads none).map Prod.fst

/-- The loop of `sr_gdb_stacktrace_find_crash_thread` looking for the thread id (lib/gdb_stacktrace.c:276-283). -/
def findTid (tid : Nat) : Nat → List GdbThread → Option Nat
  | _, [] => none
  | i, t :: ts => if t.tid = tid then some i else findTid tid (i + 1) ts

/-- `sr_gdb_stacktrace_find_crash_thread` (lib/gdb_stacktrace.c:259-312). -/
def findCrashThread (s : GdbTrace) : Option Nat :=
  match s.threads with
  | [] => none
  | [_] => some 0
  | _ =>
    match (if s.crashTid ≠ noTid then findTid s.crashTid 0 s.threads else none) with
    | some i => some i
    | none =>
      match findFromCrashFrame s .oneMatching with
      | some i => some i
      | none =>
        match findFromCrashFrame s .abortFunction with
        | some i => some i
        | none => findFromCrashFrame s .firstMatching

/-- `has_name` (lib/gdb_thread.c:172-173). -/
def hasName (f : GdbFrame) : Bool :=
  match f.functionName with | none => false | some n => strcmp n c!"??" != 0

/-- `has_source` (lib/gdb_thread.c:174). -/
def hasSource (f : GdbFrame) : Bool :=
  match f.sourceFile with | none => false | some s => !s.isEmpty

/-- `sr_gdb_thread_quality_counts` (lib/gdb_thread.c:163-183), on the counters `ok` and `all`. -/
def qualityCounts : List GdbFrame → Nat × Nat → Nat × Nat
  | [], c => c
  | f :: fs, (ok, all) =>
    qualityCounts fs (if f.signalHandlerCalled || (hasName f && hasSource f) then ok + 1 else ok, all + 1)

/-- `sr_gdb_thread_quality` (lib/gdb_thread.c:185-194). -/
def threadQuality (t : GdbThread) : Rat :=
  let c := qualityCounts t.frames (0, 0)
  if c.2 = 0 then 1 else c.1 / c.2

/-- `sr_java_thread_quality_counts` (lib/java_thread.c:155-171). -/
def javaQualityCounts : List JavaFrame → Nat × Nat → Nat × Nat
  | [], c => c
  | f :: fs, (ok, all) => javaQualityCounts fs (if f.isNative || f.fileName.isSome then ok + 1 else ok, all + 1)

/-- `sr_java_thread_quality` (lib/java_thread.c:173-182). -/
def javaThreadQuality (t : JavaThread) : Rat :=
  let c := javaQualityCounts t.frames (0, 0)
  if c.2 = 0 then 1 else c.1 / c.2

/-- The loop of `sr_gdb_stacktrace_quality_simple` (lib/gdb_stacktrace.c:332-338). -/
def simpleCounts : List GdbThread → Nat × Nat → Nat × Nat
  | [], c => c
  | t :: ts, c => simpleCounts ts (qualityCounts t.frames c)

/-- `sr_gdb_stacktrace_quality_simple` (lib/gdb_stacktrace.c:328-343). -/
def qualitySimple (s : GdbTrace) : Rat :=
  let c := simpleCounts s.threads (0, 0)
  if c.2 = 0 then 0 else c.1 / c.2

/-- `sr_normalize_gdb_thread` on a thread as a value. -/
def normalizeThread (t : GdbThread) : Out GdbThread := do
  let r ← normalizeGdb (nodes t.frames)
  .ok { t with frames := r.map Node.val }

/-- The loop of `sr_normalize_gdb_stacktrace` (lib/normalize.c:522-527). -/
def normalizeThreads : List GdbThread → Out (List GdbThread)
  | [] => .ok []
  | t :: ts => do
    let t ← normalizeThread t
    let ts ← normalizeThreads ts
    .ok (t :: ts)

/-- `sr_normalize_gdb_stacktrace`, looking for the crash thread (lib/normalize.c:509-520). -/
def rememberCrashTid (s : GdbTrace) : GdbTrace :=
  if s.crashTid = noTid then
    match findCrashThread s with
    | none => s
    | some i => { s with crashTid := (s.threads.getD i {}).tid }
  else s

/-- `sr_normalize_gdb_stacktrace` (lib/normalize.c:505-532). -/
def normalizeTrace (s : GdbTrace) : Out GdbTrace := do
  let s := rememberCrashTid s
  let ts ← normalizeThreads s.threads
  .ok { s with threads := ts, crash := s.crash.map normalizeGdbFrame }

/-- `sr_gdb_stacktrace_quality_complex` (lib/gdb_stacktrace.c:345-384). The duplicate the function works on is the value. -/
def qualityComplex (s : GdbTrace) : Out Rat := do
  let crash := findCrashThread s
  let s ← normalizeTrace s
  let q1 := qualitySimple s
  match crash with
  | none => .ok q1
  | some i => do
    let t := s.threads.getD i {}
    let q2 := threadQuality t
    let r ← removeFramesBelow 5 (nodes t.frames)
    let q3 := threadQuality { t with frames := r.map Node.val }
    .ok (1 / 4 * q1 + 7 / 20 * q2 + 2 / 5 * q3)

end Satyr.Crash
