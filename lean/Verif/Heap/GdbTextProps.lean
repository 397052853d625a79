import Verif.Heap.GdbTextTrace
import Verif.Gdb.Trace
import Verif.Heap.Props
/-!
# Reading gdb stack traces from text

C150: memory after reading a frame, a thread or a stack trace printed by gdb.
-/
namespace Satyr.Heap
open Satyr.CStr
open Satyr.Frames
open Satyr.Normalize (GdbFrame)

/-- Memory `m'` is memory `m` with the structure `v` at `p` in addition; freeing it gives back memory `m`. -/
def Grows (m : Mem) (v : Chain) (p : Ptr) (m' : Mem) : Prop :=
  (∃ f, Holds m' v true p f ∧ Adds m m' f) ∧ ∀ n, v.size < n → free n p false m' = .ok m

theorem Built.grows {k j m₀ m p x} (h : Built k j m₀ m p x) (hk : k ≠ .report) (hx : x.crash = none) : Grows m₀ (x.chain k 0) p m :=
  ⟨h.whole hx, fun _ hn => h.release hk hn false⟩

/-- C150: if the text can be read as a frame without leaving it, then either the program stops for lack of memory; or the memory added is
the frame that the text says, and freeing it gives back this memory; or there is no frame, and memory is as before. -/
theorem C150_frame (A : Allocator) (s : Str) (m : Mem) {v} (hv : Gdb.parseFrame s = .ok v) : gdbFrame A s m = .abort ∨
    match v with
    | some (f, rest) => ∃ p m', gdbFrame A s m = .ok (p, rest, m') ∧ Grows m ((gdbFramePart f).chain .gdbFrame 0) p m'
    | none => ∃ rest, gdbFrame A s m = .ok (0, rest, m) := by
  rcases gdbFrame_spec A m hv with e | h
  · exact .inl e
  · cases v with
    | none => exact .inr h
    | some v =>
      obtain ⟨p, m', e, hb⟩ := h
      exact .inr ⟨p, m', e, hb.grows (by simp) rfl⟩

/-- C150: the same for a thread. -/
theorem C150_thread (A : Allocator) (s : Str) (m : Mem) {v} (hv : Gdb.parseThread s = .ok v) : gdbThread A s m = .abort ∨
    match v with
    | some (t, rest) => ∃ p m', gdbThread A s m = .ok (p, rest, m') ∧ Grows m ((gdbThreadPart t).chain .gdbThread 0) p m'
    | none => ∃ rest, gdbThread A s m = .ok (0, rest, m) := by
  rcases gdbThread_spec A m hv with e | h
  · exact .inl e
  · cases v with
    | none => exact .inr h
    | some v =>
      obtain ⟨p, m', j, e, hb⟩ := h
      exact .inr ⟨p, m', e, hb.grows (by simp) rfl⟩

/-- C150: the same for a stack trace with its crash frame, its threads and its shared libraries. -/
theorem C150_trace (A : Allocator) (s : Str) (m : Mem) {v} (hv : Gdb.parseTrace s = .ok v) : gdbTrace A s m = .abort ∨
    match v with
    | some (t, rest) => ∃ p m', gdbTrace A s m = .ok (p, rest, m') ∧ Grows m ((gdbTracePart t).chain .gdbTrace 0) p m'
    | none => ∃ rest, gdbTrace A s m = .ok (0, rest, m) := by
  rcases gdbTrace_spec A m hv with e | h
  · exact .inl e
  · cases v with
    | none => exact .inr ⟨s, h⟩
    | some v =>
      obtain ⟨p, m', j, e, hb⟩ := h
      exact .inr ⟨p, m', e, hb.grows (by simp) rfl⟩

/-- C150: reading a stack trace from a text that ends with a line break is well-defined for all memory and all allocators, if reading of
the list of shared libraries does not leave the text. -/
theorem C150_defined (A : Allocator) {s : Str} (m : Mem) (hs : Gdb.EndsNl s) (hl : Fine (Gdb.parseLibs s)) : gdbTrace A s m ≠ .ub := by
  obtain ⟨v, hv⟩ := Gdb.C56_gdb_trace_partial hs hl
  rcases C150_trace A s m hv with e | h
  · rw [e]; simp
  · cases v with
    | none => obtain ⟨_, e⟩ := h; rw [e]; simp
    | some v => obtain ⟨_, _, e, _⟩ := h; rw [e]; simp

/-- What can be seen of the result: whether there is something, the rest, and the first addresses that are in use. -/
def seen150 (r : Out (Ptr × Str × Mem)) : Out (Bool × Str × List Nat) :=
  r.bind fun (p, rest, m) => .ok (p ≠ 0, rest, (List.range 60).filter fun i => (m i).isSome)

/-- A stack trace with a crash frame, a thread and a library. -/
def exampleGdb : Str :=
  c!"From To Syms Read Shared Object Library\n0x1 0x2 Yes /l.so\n\n#0  f (a=1) at b.c:1\nThread 1 (LWP 5):\n#0  f (a=1) at b.c:1\n#1  0x2 in int A::g<B> const (x=\"(\") from /lib/c.so\n"

/-- The names in a stack trace. -/
def names150 (r : Out (Option (GdbTrace × Str))) : Out (Option (List (List (Option Str × Option Str × Option Str)) × Bool × List (Option Str))) :=
  r.bind fun v => .ok (v.map fun r =>
    (r.1.threads.map fun t => t.frames.map fun f => (f.functionName, f.functionType, f.sourceFile), r.1.crash.isSome,
      r.1.libs.map fun l => l.soname))

set_option maxRecDepth 40000 in
set_option synthInstance.maxHeartbeats 400000 in
set_option synthInstance.maxSize 2000 in
/-- The hypothesis holds, and the frames have names and types. -/
example : names150 (Gdb.parseTrace exampleGdb) =
    .ok (some ([[(some c!"f", none, some c!"b.c"), (some c!"A::g<B> const", some c!"int", none)]], true, [some c!"/l.so"])) := by
  decide +kernel

set_option maxRecDepth 40000 in
/-- Thirteen blocks: the stack trace, its library with a name, the crash frame with two texts, the thread with one frame with two texts
and one with two texts. -/
example : seen150 (gdbTrace firstFree exampleGdb fun _ => none) = .ok (true, [], [1, 2, 3, 4, 5, 6, 7, 8, 9, 10, 11, 12, 14]) := by
  decide +kernel

/-- A stack trace with a library and a crash frame, but with no thread. -/
def exampleNoThread : Str := c!"From To Syms Read Shared Object Library\n0x1 0x2 Yes /l.so\n\n#0  f (a=1) at b.c:1\nx\n"

set_option maxRecDepth 40000 in
example : Gdb.parseTrace exampleNoThread = .ok none ∧
    seen150 (gdbTrace firstFree exampleNoThread fun _ => none) = .ok (false, exampleNoThread, []) := by
  decide +kernel

set_option maxRecDepth 40000 in
/-- The hypotheses of `C150_defined` hold. -/
example : Gdb.EndsNl exampleGdb ∧ Fine (Gdb.parseLibs exampleGdb) := by
  refine ⟨by decide +kernel, [⟨1, 2, 0, some c!"/l.so"⟩], by decide +kernel⟩

set_option maxRecDepth 40000 in
/-- Failures in the middle of names: everything that was read is freed. -/
example : seen150 (gdbFrame firstFree c!"#0  int f<a> constx (a) at b:1\n" fun _ => none) =
      .ok (false, c!"#0  int f<a> constx (a) at b:1\n", []) ∧
    seen150 (gdbFrame firstFree c!"#0  int f (a\n" fun _ => none) = .ok (false, c!"#0  int f (a\n", []) ∧
    seen150 (gdbFrame firstFree c!"#0  (a" fun _ => none) = .ok (false, c!"#0  (a", []) := by
  decide +kernel

end Satyr.Heap
