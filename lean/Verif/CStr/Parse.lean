import Verif.CStr.Props
import Verif.CStr.Num
import Verif.CStr.Idx
import Verif.CStr.Scan
/-!
# What the scanning functions do on a text made of known parts
-/
namespace Satyr.CStr

/-- Arithmetic of the lengths of texts. -/
macro "len" : tactic => `(tactic| (simp only [List.length_append, List.length_cons, List.length_nil, Nat.pred_eq_sub_one] <;> omega))

theorem skipSpan_append {a b set : Str} (ha : ∀ c ∈ a, c ∈ set) (hb : peek b ∉ set) :
    skipCharSpan (a ++ b) set = .ok (a.length, b) := by
  have := takeWhile_append_stop (p := fun c => set.contains c) (a := a) (b := b) (fun c hc => by simpa using ha c hc)
    (by simpa using hb)
  rw [skipCharSpan_eq, this.1, this.2]

theorem takeWhile_cspan {a b set : Str} (ha : ∀ c ∈ a, c ∉ set) (hb : b = [] ∨ peek b ∈ set) :
    (a ++ b).takeWhile (fun c => !set.contains c) = a ∧ (a ++ b).dropWhile (fun c => !set.contains c) = b := by
  rcases hb with rfl | hb
  · rw [List.append_nil]
    have h : ∀ c ∈ a, (!set.contains c) = true := fun c hc => by simpa using ha c hc
    exact ⟨List.takeWhile_eq_self_iff.2 h, List.dropWhile_eq_nil_iff.2 h⟩
  · exact takeWhile_append_stop (fun c hc => by simpa using ha c hc) (by simpa using hb)

theorem skipCspan_append {a b set : Str} (ha : ∀ c ∈ a, c ∉ set) (hb : b = [] ∨ peek b ∈ set) :
    skipCharCspan (a ++ b) set = .ok (a.length, b) := by
  have := takeWhile_cspan ha hb
  rw [skipCharCspan_eq, this.1, this.2]

theorem parseCspan_append {a b set : Str} (ha : ∀ c ∈ a, c ∉ set) (hb : b = [] ∨ peek b ∈ set) (hne : a ≠ []) :
    parseCharCspan (a ++ b) set = .ok (some a, b) := by
  have := takeWhile_cspan ha hb
  rw [parseCharCspan_eq, this.1, this.2, if_neg hne]

theorem skipChar_cons {c : Char} (hc : c ≠ '\x00') (t : Str) : skipChar (c :: t) c = .ok (true, t) := (C27_char _ c hc).1 t rfl

theorem skipChar_not {c : Char} {s : Str} (hc : c ≠ '\x00') (h : peek s ≠ c) : skipChar s c = .ok (false, s) :=
  (C27_char _ c hc).2 (by rintro ⟨t, rfl⟩; exact h rfl)

theorem skipString_append (a b : Str) : skipString (a ++ b) a = (a.length, b) := ((C27_string _ a).1 b rfl).1

theorem skipString_not {s a : Str} (h : startsWith s a = false) : skipString s a = (0, s) := by
  refine ((C27_string s a).2 ?_).1
  rintro ⟨t, rfl⟩
  rw [(startsWith_split _ _).2 ⟨t, rfl⟩] at h
  exact absurd h (by decide)

theorem skipString_cases (s a : Str) : (∃ b, s = a ++ b ∧ skipString s a = (a.length, b)) ∨ skipString s a = (0, s) := by
  by_cases h : ∃ b, s = a ++ b
  · obtain ⟨b, rfl⟩ := h
    exact .inl ⟨b, rfl, skipString_append a b⟩
  · exact .inr ((C27_string s a).2 h).1

theorem parseUint32_digits {ds rest : Str} (h : ∀ c ∈ ds, IsDec c = true) (hne : ds ≠ []) (hv : decValue ds < 2 ^ 32)
    (hr : IsDec (peek rest) = false) : parseUint32 (ds ++ rest) = .ok (ds.length, some (decValue ds), rest) := by
  rw [C25_uint32]
  simp only [(takeWhile_append_stop h hr).1]
  rw [if_pos ⟨hne, hv⟩, List.drop_left]

theorem parseUint32_none {s : Str} (h : IsDec (peek s) = false) : parseUint32 s = .ok (0, none, s) := by
  rw [C25_uint32]
  have : s.takeWhile IsDec = [] := by
    cases s with
    | nil => rfl
    | cons c t => rw [List.takeWhile_cons, if_neg (by simpa using h)]
  simp only [this]
  simp

/-- Reading the character at a position of the text; at the end it is the terminator, beyond it the outcome is undefined. -/
def rd (s : Str) (i : Nat) : Out Char := if i ≤ s.length then .ok (s.getD i '\x00') else .ub

theorem rd_append (a b : Str) : rd (a ++ b) a.length = .ok (peek b) := by
  rw [rd, if_pos (by simp)]
  cases b with
  | nil => simp
  | cons c t => simp [List.getD_eq_getElem?_getD]

theorem rd_mid (a : Str) (c : Char) (b : Str) {i : Nat} (hi : i = a.length) : rd (a ++ c :: b) i = .ok c := by
  subst hi; exact rd_append a (c :: b)

theorem rd_ok {s : Str} {i : Nat} (h : i ≤ s.length) : rd s i = .ok (peek (s.drop i)) := by
  have := rd_append (s.take i) (s.drop i)
  rwa [List.take_append_drop, List.length_take, Nat.min_eq_left h] at this

/-! ## Well-defined outcomes -/

/-- The outcome is a result: nothing undefined happens, and no assertion fails. -/
def Fine {α : Type} (x : Out α) : Prop := ∃ r, x = .ok r

theorem Fine.ok {α : Type} (a : α) : Fine (.ok a) := ⟨a, rfl⟩

theorem Fine.bind {α β : Type} {x : Out α} {f : α → Out β} (hx : Fine x) (hf : ∀ a, x = .ok a → Fine (f a)) : Fine (x >>= f) := by
  obtain ⟨a, rfl⟩ := hx
  exact hf a rfl

theorem Fine.ite {α : Type} {p : Prop} [Decidable p] {x y : Out α} (hx : p → Fine x) (hy : ¬ p → Fine y) : Fine (if p then x else y) := by
  by_cases h : p
  · rw [if_pos h]; exact hx h
  · rw [if_neg h]; exact hy h

theorem skipCharSpan_fine (s set : Str) : Fine (skipCharSpan s set) := ⟨_, skipCharSpan_eq s set⟩
theorem skipCharCspan_fine (s set : Str) : Fine (skipCharCspan s set) := ⟨_, skipCharCspan_eq s set⟩
theorem parseCharSpan_fine (s set : Str) : Fine (parseCharSpan s set) := ⟨_, parseCharSpan_eq s set⟩
theorem parseCharCspan_fine (s set : Str) : Fine (parseCharCspan s set) := ⟨_, parseCharCspan_eq s set⟩
theorem parseUint32_fine (s : Str) : Fine (parseUint32 s) := ⟨_, C25_uint32 s⟩
theorem parseUint64_fine (s : Str) : Fine (parseUint64 s) := ⟨_, C25_uint64_partial s⟩
theorem skipChar_fine (s : Str) {c : Char} (hc : c ≠ '\x00') : Fine (skipChar s c) := ⟨_, skipChar_eq s hc⟩

theorem advance_fine {s : Str} (h : s ≠ []) : Fine (advance s) := by
  cases s with
  | nil => exact absurd rfl h
  | cons c t => exact ⟨t, rfl⟩

theorem skipToNextLine_fine (s : Str) (l : Loc) : Fine (skipToNextLine s l) := by
  unfold skipToNextLine
  refine (skipCharCspan_fine s _).bind fun a _ => Fine.ite (fun h => ?_) fun _ => Fine.ok _
  refine (advance_fine (s := a.2) ?_).bind fun _ _ => Fine.ok _
  intro h0
  rw [h0] at h
  exact absurd h (by decide)

theorem span_split (s set : Str) : ∃ a b, s = a ++ b ∧ (∀ c ∈ a, c ∉ set) ∧ (b = [] ∨ peek b ∈ set) ∧ skipCharCspan s set = .ok (a.length, b) := by
  refine ⟨s.takeWhile (fun c => !set.contains c), s.dropWhile (fun c => !set.contains c), (List.takeWhile_append_dropWhile).symm,
    fun c hc => by simpa using List.mem_takeWhile_imp hc, ?_, skipCharCspan_eq s set⟩
  cases h : s.dropWhile (fun c => !set.contains c) with
  | nil => exact .inl rfl
  | cons c t =>
    refine .inr ?_
    have := List.head_dropWhile_not (l := s) (fun c => !set.contains c) (by rw [h]; simp)
    simp only [h] at this
    simpa using this

/-! ## Outcomes with a property -/

/-- The outcome is a result with a property. -/
def Yields {α : Type} (x : Out α) (P : α → Prop) : Prop := ∃ r, x = .ok r ∧ P r

theorem Yields.ok {α : Type} {P : α → Prop} {a : α} (h : P a) : Yields (.ok a) P := ⟨a, rfl, h⟩

theorem Yields.fine {α : Type} {P : α → Prop} {x : Out α} (h : Yields x P) : Fine x := h.imp fun _ h => h.1

theorem Yields.mono {α : Type} {P Q : α → Prop} {x : Out α} (h : Yields x P) (hpq : ∀ a, P a → Q a) : Yields x Q :=
  h.imp fun a h => ⟨h.1, hpq a h.2⟩

theorem Yields.bind {α β : Type} {P : α → Prop} {Q : β → Prop} {x : Out α} {f : α → Out β} (hx : Yields x P)
    (hf : ∀ a, P a → Yields (f a) Q) : Yields (x >>= f) Q := by
  obtain ⟨a, rfl, h⟩ := hx
  exact hf a h

theorem Yields.ite {α : Type} {P : α → Prop} {p : Prop} [Decidable p] {x y : Out α} (hx : p → Yields x P) (hy : ¬ p → Yields y P) :
    Yields (if p then x else y) P := by
  by_cases h : p
  · rw [if_pos h]; exact hx h
  · rw [if_neg h]; exact hy h

theorem dropWhile_len {p : Char → Bool} (s : Str) : (s.dropWhile p).length ≤ s.length := (List.dropWhile_suffix p).length_le

theorem skipWs_len (s : Str) : (skipWs s).length ≤ s.length := dropWhile_len s

theorem skipCharSpan_yields (s set : Str) : Yields (skipCharSpan s set) fun r => r.2.length ≤ s.length :=
  ⟨_, skipCharSpan_eq s set, dropWhile_len s⟩

theorem skipCharCspan_yields (s set : Str) : Yields (skipCharCspan s set) fun r => r.2.length ≤ s.length :=
  ⟨_, skipCharCspan_eq s set, dropWhile_len s⟩

/-- The number of skipped characters is the number of characters by which the text became shorter. -/
theorem skipCharCspan_count (s set : Str) : Yields (skipCharCspan s set) fun r => r.1 + r.2.length = s.length := by
  refine ⟨_, skipCharCspan_eq s set, ?_⟩
  dsimp only
  rw [← List.length_append, List.takeWhile_append_dropWhile]

theorem parseCharSpan_yields (s set : Str) : Yields (parseCharSpan s set) fun r => r.2.length ≤ s.length :=
  ⟨_, parseCharSpan_eq s set, by split <;> first | exact le_refl _ | exact dropWhile_len s⟩

theorem parseCharCspan_yields (s set : Str) : Yields (parseCharCspan s set) fun r => r.2.length ≤ s.length :=
  ⟨_, parseCharCspan_eq s set, by split <;> first | exact le_refl _ | exact dropWhile_len s⟩

theorem parseUint32_yields (s : Str) : Yields (parseUint32 s) fun r => r.2.2.length ≤ s.length :=
  ⟨_, C25_uint32 s, by dsimp only; split <;> simp⟩

theorem skipChar_yields (s : Str) {c : Char} (hc : c ≠ '\x00') : Yields (skipChar s c) fun r => r.2.length ≤ s.length := by
  refine ⟨_, skipChar_eq s hc, ?_⟩
  split <;> (try split) <;> simp

theorem advance_yields {s : Str} (h : s ≠ []) : Yields (advance s) fun r => r.length + 1 = s.length := by
  cases s with
  | nil => exact absurd rfl h
  | cons c t => exact ⟨t, rfl, by simp⟩

theorem peek_ne {s : Str} {c : Char} (h : peek s = c) (hc : c ≠ '\x00') : s ≠ [] := by
  rintro rfl; exact hc h.symm

theorem skipToNextLine_yields (s : Str) (l : Loc) :
    Yields (skipToNextLine s l) fun r => r.2.1.length ≤ s.length ∧ (s ≠ [] → r.2.1.length < s.length) := by
  obtain ⟨a, b, rfl, ha, hb, hs⟩ := span_split s c!"\n"
  unfold skipToNextLine
  rw [hs, Out.bind_ok]
  dsimp only
  refine Yields.ite (fun h => ?_) fun h => .ok ?_
  · refine (advance_yields (peek_ne h (by decide))).bind fun b hb => .ok ?_
    rw [List.length_append]
    dsimp only
    constructor <;> intros <;> omega
  · rcases hb with rfl | hb
    · refine ⟨by simp, fun hne => ?_⟩
      have := List.length_pos_iff.2 hne
      simpa using this
    · exact absurd (by simpa using hb) h

/-- If the outcome is a result, it has a property. -/
def Post {α : Type} (x : Out α) (P : α → Prop) : Prop := ∀ r, x = .ok r → P r

theorem Post.ok {α : Type} {P : α → Prop} {a : α} (h : P a) : Post (.ok a) P := by rintro r ⟨⟩; exact h

theorem Post.abort {α : Type} {P : α → Prop} : Post (.abort : Out α) P := by rintro r ⟨⟩

theorem Post.ub {α : Type} {P : α → Prop} : Post (.ub : Out α) P := by rintro r ⟨⟩

theorem Post.any {α : Type} (x : Out α) : Post x fun _ => True := fun _ _ => trivial

theorem Post.bind {α β : Type} {P : α → Prop} {Q : β → Prop} {x : Out α} {f : α → Out β} (hx : Post x P)
    (hf : ∀ a, P a → Post (f a) Q) : Post (x >>= f) Q := by
  cases x with
  | ok a => exact hf a (hx a rfl)
  | abort => exact Post.abort
  | ub => exact Post.ub

theorem Post.ite {α : Type} {P : α → Prop} {p : Prop} [Decidable p] {x y : Out α} (hx : p → Post x P) (hy : ¬ p → Post y P) :
    Post (if p then x else y) P := by
  by_cases h : p
  · rw [if_pos h]; exact hx h
  · rw [if_neg h]; exact hy h

theorem Post.mono {α : Type} {P Q : α → Prop} {x : Out α} (h : Post x P) (hpq : ∀ a, P a → Q a) : Post x Q := fun r hr => hpq r (h r hr)

theorem Yields.post {α : Type} {P : α → Prop} {x : Out α} (h : Yields x P) : Post x P := by
  obtain ⟨a, rfl, h⟩ := h
  exact .ok h

theorem Fine.yields {α : Type} {P : α → Prop} {x : Out α} (h : Fine x) (hp : Post x P) : Yields x P := by
  obtain ⟨a, rfl⟩ := h
  exact .ok (hp a rfl)

theorem skipString_len (s a : Str) : (skipString s a).1 + (skipString s a).2.length = s.length := by
  rcases skipString_cases s a with ⟨b, rfl, h⟩ | h <;> rw [h] <;> simp

end Satyr.CStr
