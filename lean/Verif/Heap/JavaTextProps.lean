import Verif.Heap.JavaTextExceptions
import Verif.Heap.TextProps
/-!
# Reading Java stack traces from text: what is lost (C149)
-/
namespace Satyr.Heap
open Satyr.CStr
open Satyr.Text
open Satyr.Frames

/-- C149: whatever the text, the memory and the allocator are, reading a Java stack trace is well-defined. Either the program stops for
lack of memory; or the text can be read, and the memory added is the stack trace that the text says; or it cannot, the message is a
constant, and the memory added is the frames that had been read, without the structures of the exceptions. -/
theorem C149_java (A : Allocator) (inp : Str) (m : Mem) (c : Message) : ∃ v, Java.parseThread inp = .ok v ∧
    match (generalizing := false) v with
    | some (t, rest) => javaTrace A inp m c = .abort ∨
      ∃ p m' f, javaTrace A inp m c = .ok (p, rest, m', c) ∧ p ≠ 0 ∧ Holds m' ((javaTracePart ⟨[t]⟩).chain .javaTrace 0) true p f ∧ Adds m m' f
    | none => ∃ lost, Java.lostFrames inp = .ok lost ∧ (javaTrace A inp m c = .abort ∨
      ∃ msg m' f, javaTrace A inp m c = .ok (0, [], m', .constant msg) ∧ msg ∈ threadMessages ∧ Keeps m' lost f ∧ Adds m m' f) := by
  obtain ⟨v, hv⟩ := Java.C56_java_trace inp
  refine ⟨v, hv, ?_⟩
  have h := javaThread_spec A (m := m) hv
  unfold javaTrace
  cases v with
  | none =>
    dsimp only at h ⊢
    obtain ⟨lost, hl, h⟩ := h
    refine ⟨lost, hl, ?_⟩
    rcases h with e | ⟨msg, m', f, e, h1, h2, h3⟩
    · rw [e]; exact .inl rfl
    · rw [e, bind_ok]
      dsimp only
      rw [if_pos rfl]
      exact .inr ⟨msg, m', f, rfl, h1, h2, h3⟩
  | some x =>
    obtain ⟨t, rest⟩ := x
    dsimp only at h ⊢
    rcases h with e | ⟨q, m₁, f, e, h1, h2⟩
    · rw [e]; exact .inl rfl
    rw [e, bind_ok]
    dsimp only
    rw [if_neg (h1.ne (by simp [Part.chain]))]
    rcases new_spec A .javaTrace .null m₁ with e | ⟨p, m₂, e, hb⟩
    · rw [e]; exact .inl rfl
    rw [e, bind_ok]
    dsimp only
    obtain ⟨g, hh, hA⟩ := hb.whole rfl
    have hAA := (h2.trans hA).perm List.perm_append_comm
    obtain ⟨r, j1, j2, j3⟩ := hang_spec hh (h1.ext hA.ext) hAA.nodup
    rw [readRecord, j1]
    dsimp only
    rw [bind_ok, writeRecord, j1]
    dsimp only
    rw [bind_ok]
    have hp := hh.ne (by simp [Part.chain])
    exact .inr ⟨p, _, g ++ f, rfl, hp, j3, hAA.set (List.mem_append_left _ (hh.mem (by simp [Part.chain]))) _⟩

theorem calls_typed : ∀ l : List JavaFrame, (calls l).Typed [.javaFrame]
  | [] => trivial
  | f :: l => by rw [calls_cons]; exact ⟨by simp, rfl, calls_typed l, rfl, rfl, rfl, rfl⟩

/-- C149, the case in which the text can be read: freeing the stack trace gives back all memory. -/
theorem C149_freed_partial (A : Allocator) (inp : Str) (m : Mem) (c : Message) {t rest} (h : Java.parseThread inp = .ok (some (t, rest))) :
    javaTrace A inp m c = .abort ∨ ∃ p m', javaTrace A inp m c = .ok (p, rest, m', c) ∧ p ≠ 0 ∧
      ∀ n, t.frames.length + 2 < n → free n p false m' = .ok m := by
  obtain ⟨v, hv, hx⟩ := C149_java A inp m c
  rw [h] at hv
  cases hv
  dsimp only at hx
  rcases hx with e | ⟨p, m', f, e, hp, h1, h2⟩
  · exact .inl e
  refine .inr ⟨p, m', e, hp, fun n hn => ?_⟩
  have hs : ((javaTracePart ⟨[t]⟩).chain .javaTrace 0).size = t.frames.length + 2 := by
    show 1 + (1 + (calls t.frames).size + 0 + 0 + 0 + 0) + 0 + 0 + 0 + 0 = _
    rw [calls_size]
    omega
  rw [free_spec ((javaTracePart ⟨[t]⟩).chain .javaTrace 0) n false p f m' [.javaTrace] (by omega)
    ⟨by simp, rfl, trivial, ⟨⟨by simp, rfl, trivial, ⟨calls_typed _, fun h => by cases h⟩, rfl, rfl, rfl⟩, fun h => by cases h⟩, rfl, rfl, rfl⟩
    ⟨by simp, trivial⟩ (h1.alone rfl) h2.nodup, h2.erase]

theorem Keeps.none {m : Mem} : ∀ {ls f}, Keeps m ls f → (f = [] ↔ ∀ l ∈ ls, l = [])
  | [], _, h => by simp only [Keeps] at h; simp [h]
  | l :: ls, f, ⟨p, g, k, h1, h2, e⟩ => by
    subst e
    have ih := h2.none
    rw [List.append_eq_nil_iff, ih]
    simp only [List.forall_mem_cons]
    refine and_congr_left fun _ => ?_
    constructor
    · intro hg
      by_contra hl
      have := h1.mem (calls_ne hl)
      rw [hg] at this
      cases this
    · rintro rfl
      exact h1.2

/-- C149, the case in which the text cannot be read: memory is as before if no frame had been read, and only then. -/
theorem C149_failure_partial (A : Allocator) (inp : Str) (m : Mem) (c : Message) (h : Java.parseThread inp = .ok none) :
    ∃ lost, Java.lostFrames inp = .ok lost ∧ (javaTrace A inp m c = .abort ∨
      ∃ msg m', javaTrace A inp m c = .ok (0, [], m', .constant msg) ∧ (m' = m ↔ ∀ l ∈ lost, l = [])) := by
  obtain ⟨v, hv, hx⟩ := C149_java A inp m c
  rw [h] at hv
  cases hv
  dsimp only at hx
  obtain ⟨lost, hl, hx⟩ := hx
  refine ⟨lost, hl, ?_⟩
  rcases hx with e | ⟨msg, m', f, e, h1, h2, h3⟩
  · exact .inl e
  refine .inr ⟨msg, m', e, ?_⟩
  rw [← h2.none]
  constructor
  · rintro rfl
    exact List.eq_nil_iff_forall_not_mem.2 fun x hx => h3.used x hx (h3.fresh x hx)
  · rintro rfl
    exact funext fun x => h3.same x (by simp)

/-- A stack trace with a line that is not a frame. -/
def brokenJava : Str := c!"Exception in thread \"main\" E: no\n\tat A.b(C.java:1)\n\tat A.c(C.java:2)\n\n(5 more)\n"

/-- A stack trace of which the exception that caused the other has no name. -/
def brokenCause : Str := c!"E\n\tat A.b(C.java:1)\nCaused by: \n"

set_option maxRecDepth 20000 in
/-- C149 is false: frames are lost when a later line is not a frame, or when a later exception cannot be read. -/
theorem C149_not_failure : (∀ inp ∈ [brokenJava, brokenCause], ∀ (A : Allocator) (m : Mem) (c : Message), javaTrace A inp m c = .abort ∨
    ∃ msg m', javaTrace A inp m c = .ok (0, [], m', .constant msg) ∧ m' ≠ m) := by
  have key : ∀ inp lost, Java.parseThread inp = .ok none → Java.lostFrames inp = .ok lost → ¬ (∀ l ∈ lost, l = []) →
      ∀ (A : Allocator) (m : Mem) (c : Message), javaTrace A inp m c = .abort ∨
        ∃ msg m', javaTrace A inp m c = .ok (0, [], m', .constant msg) ∧ m' ≠ m := by
    intro inp lost h1 h2 h3 A m c
    obtain ⟨l, h4, h5⟩ := C149_failure_partial A inp m c h1
    rw [h2] at h4
    cases h4
    rcases h5 with e | ⟨msg, m', e, h6⟩
    · exact .inl e
    · exact .inr ⟨msg, m', e, fun h => h3 (h6.1 h)⟩
  intro inp hi
  simp only [List.mem_cons, List.not_mem_nil, or_false] at hi
  rcases hi with rfl | rfl
  · exact key _ [[{ name := some c!"A.b", fileName := some c!"C.java", fileLine := 1 }, { name := some c!"A.c", fileName := some c!"C.java", fileLine := 2 }]]
      (by decide +kernel) (by decide +kernel) (by decide)
  · exact key _ [[{ name := some c!"A.b", fileName := some c!"C.java", fileLine := 1 }]] (by decide +kernel) (by decide +kernel) (by decide)

/-- What can be seen of the result: whether there is a stack trace, the rest, and the blocks at the first addresses that are in use. -/
def seen149 (r : Out (Ptr × Str × Mem × Message)) : Out (Bool × Str × List Nat × Message) :=
  r.bind fun (p, rest, m, c) => .ok (p ≠ 0, rest, (List.range 40).filter fun i => (m i).isSome, c)

set_option maxRecDepth 20000 in
example : seen149 (javaTrace firstFree brokenJava (fun _ => none) .unset) = .ok (false, [], [6, 7, 8, 9, 10, 11], .constant c!"Frame expected") := by
  decide +kernel

set_option maxRecDepth 20000 in
example : seen149 (javaTrace firstFree brokenCause (fun _ => none) .unset) = .ok (false, [], [4, 5, 6], .constant c!"Expected exception name") := by
  decide +kernel

set_option maxRecDepth 20000 in
example : seen149 (javaTrace firstFree c!"Exception in thread \"main" (fun _ => none) .unset) =
    .ok (false, [], [], .constant c!"\"Thread\" name end expected") := by
  decide +kernel

set_option maxRecDepth 20000 in
example : seen149 (javaTrace firstFree c!"E\n\tat A.b(C.java:1)\nCaused by: F: g\n\tat D.e(Native Method)\n" (fun _ => none) .unset) =
    .ok (true, [], [1, 2, 3, 4, 5, 6, 7, 8, 9, 10, 11, 12], .unset) := by
  decide +kernel

end Satyr.Heap
