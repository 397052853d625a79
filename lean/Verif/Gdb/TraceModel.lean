import Verif.Gdb.FrameModel
import Verif.Gdb.LibModel
/-!
# Model of the reading of gdb threads and stack traces (lib/gdb_thread.c:307-456, lib/gdb_stacktrace.c:441-562)

A position in the text is the rest of the text. Locations are not modelled. A loop that does not end within its fuel is
undefined.
-/
namespace Satyr.Gdb
open Satyr.CStr Satyr.Normalize Satyr.Frames

/-- `sr_gdb_thread_parse_lwp` (lib/gdb_thread.c:438-456): the number and the rest, if they are there. -/
def parseLwp (s : Str) : Out (Option (Nat × Str)) :=
  if (skipString s c!"(LWP ").1 = 0 then .ok none else do
  let n ← parseUint32 (skipString s c!"(LWP ").2
  if n.1 = 0 then .ok none else do
  let b ← skipChar n.2.2 ')'
  .ok (if b.1 then some (n.2.1.getD 0, b.2) else none)

/-- The thread id after a call of `sr_gdb_thread_parse_lwp` that may read nothing, and the rest. -/
def optLwp (tid : Nat) (s : Str) : Out (Nat × Str) := do
  let l ← parseLwp s
  .ok (l.getD (tid, s))

/-- The identification of a thread (lib/gdb_thread.c:362-366): zero characters or the rest. -/
def skipThreadId (s : Str) : Out (Nat × Str) := do
  let a ← skipHex0xUint s
  if a.1 = 0 then skipCharSpan a.2 digits10 else .ok a

/-- The part `(Thread ...)` of the header (lib/gdb_thread.c:355-388): the thread id and the rest. -/
def threadSection (tid : Nat) (s : Str) : Out (Option (Nat × Str)) :=
  if (skipString s c!"(Thread ").1 = 0 then .ok (some (tid, s)) else do
  let d ← skipThreadId (skipString s c!"(Thread ").2
  if d.1 = 0 then .ok none else do
  let w ← skipCharSequence d.2 ' '
  let l ← optLwp tid w.2
  let b ← skipChar l.2 ')'
  .ok (if b.1 then some (l.1, b.2) else none)

/-- The header of a thread after the keyword (lib/gdb_thread.c:320-398): number, thread id and the rest. -/
def threadHeader (s : Str) : Out (Option (Nat × Nat × Str)) := do
  let w ← skipCharSequence s ' '
  if w.1 = 0 then .ok none else do
  let n ← parseUint32 w.2
  if n.1 = 0 then .ok none else do
  let w ← skipCharSequence n.2.2 ' '
  if w.1 = 0 then .ok none else do
  let l ← optLwp (2 ^ 32 - 1) w.2
  let t ← threadSection l.1 l.2
  match t with
  | none => .ok none
  | some (tid, s) =>
    .ok (if (skipString s c!":\n").1 = 0 then none else some (n.2.1.getD 0, tid, (skipString s c!":\n").2))

/-- The loop over the frames (lib/gdb_thread.c:407-424). -/
def framesLoop : Nat → Str → Out (List GdbFrame × Str)
  | 0, _ => .ub
  | fuel + 1, s => do
    let f ← parseFrame s
    match f with
    | none => .ok ([], s)
    | some (f, t) => do
      let r ← framesLoop fuel t
      .ok (f :: r.1, r.2)

/-- The frames of a thread and what is returned (lib/gdb_thread.c:407-435). -/
def threadFrames (number tid : Nat) (s : Str) : Out (Option (GdbThread × Str)) := do
  let r ← framesLoop (s.length + 1) s
  .ok (if r.1 = [] then none else some ({ newThread with number, tid, frames := r.1 }, r.2))

/-- `sr_gdb_thread_parse` (lib/gdb_thread.c:308-435). -/
def parseThread (s : Str) : Out (Option (GdbThread × Str)) :=
  if (skipString s c!"Thread").1 = 0 then threadFrames 0 (2 ^ 32 - 1) s else do
  let h ← threadHeader (skipString s c!"Thread").2
  match h with
  | none => .ok none
  | some (number, tid, s) => threadFrames number tid s

/-- `sr_gdb_stacktrace_parse_header` (lib/gdb_stacktrace.c:483-561): `none` is the failure; otherwise the crash frame, if there
is one, and the rest. -/
def parseTraceHeader (s : Str) : Out (Option (Option GdbFrame × Str)) :=
  match strstrI c!"\nThread " s, strstrI c!"\n#" s with
  | some t, some f =>
    if f + 1 < t + 1 then do
      let r ← parseFrame (s.drop (f + 1))
      .ok (r.map fun q => (some q.1, q.2))
    else .ok (some (none, s.drop (t + 1)))
  | some t, none => .ok (some (none, s.drop (t + 1)))
  | none, some f => do
    let r ← parseFrame (s.drop (f + 1))
    .ok (r.map fun q => (some q.1, q.2))
  | none, none => .ok none

/-- The loop over the threads (lib/gdb_stacktrace.c:464-473). -/
def threadsLoop : Nat → Str → Out (List GdbThread × Str)
  | 0, _ => .ub
  | fuel + 1, s => do
    let t ← parseThread s
    match t with
    | none => .ok ([], s)
    | some (t, u) => do
      let r ← threadsLoop fuel u
      .ok (t :: r.1, r.2)

/-- `sr_gdb_stacktrace_parse` (lib/gdb_stacktrace.c:441-481) with `sr_gdb_stacktrace_init` (lib/gdb_stacktrace.c:87-94). -/
def parseTrace (s : Str) : Out (Option (GdbTrace × Str)) := do
  let libs ← parseLibs s
  let h ← parseTraceHeader s
  match h with
  | none => .ok none
  | some (crash, t) => do
    let r ← threadsLoop (t.length + 1) t
    .ok (if r.1 = [] then none else some ({ threads := r.1, crash, libs, crashTid := 2 ^ 32 - 1 }, r.2))

end Satyr.Gdb
