import Verif.CStr.Parse
import Mathlib.Data.List.Induction
/-!
# Exact descriptions of the parsing primitives

For each primitive: the texts on which it has a given result.
-/
namespace Satyr.CStr

/-- Decimal digits with their value, below 2^32. -/
structure Number (d : Str) (v : Nat) : Prop where
  nonempty : d ≠ []
  digits : ∀ c ∈ d, IsDec c = true
  value : decValue d = v
  small : v < 2 ^ 32

/-- The first occurrence of `needle` in `h` is after `pre` and before `rest`. -/
def FirstAt (needle h pre rest : Str) : Prop :=
  h = pre ++ needle ++ rest ∧ ∀ pre' rest', h = pre' ++ needle ++ rest' → pre.length ≤ pre'.length

theorem parseCspan_iff {s set x t : Str} : parseCharCspan s set = .ok (some x, t) ↔
    s = x ++ t ∧ x ≠ [] ∧ (∀ c ∈ x, c ∉ set) ∧ (t = [] ∨ peek t ∈ set) := by
  constructor
  · intro h
    rw [parseCharCspan_eq] at h
    injection h with h
    rw [Prod.mk.injEq] at h
    obtain ⟨h1, h2⟩ := h
    split at h1
    · cases h1
    · next hne =>
      injection h1 with h1
      refine ⟨by rw [← h1, ← h2, List.takeWhile_append_dropWhile], by rw [← h1]; exact hne, ?_, ?_⟩
      · intro c hc
        rw [← h1] at hc
        simpa using List.mem_takeWhile_imp hc
      · cases ht : t with
        | nil => exact .inl rfl
        | cons c r =>
          right
          have := List.head_dropWhile_not (fun c => !set.contains c) (l := s) (by rw [h2, ht]; simp)
          have e : (List.dropWhile (fun c => !set.contains c) s).head? = some c := by rw [h2, ht]; rfl
          rw [List.head?_eq_some_head (by rw [h2, ht]; simp)] at e
          injection e with e
          rw [e] at this
          simpa using this
  · rintro ⟨rfl, h1, h2, h3⟩
    exact parseCspan_append h2 h3 h1

theorem parseCspan_none {s set t : Str} : parseCharCspan s set = .ok (none, t) ↔ t = s ∧ (s = [] ∨ peek s ∈ set) := by
  rw [parseCharCspan_eq]
  constructor
  · intro h
    injection h with h
    rw [Prod.mk.injEq] at h
    obtain ⟨h1, h2⟩ := h
    split at h1
    · next he =>
      rw [dropWhile_of_takeWhile_nil he] at h2
      refine ⟨h2.symm, ?_⟩
      cases s with
      | nil => exact .inl rfl
      | cons c s =>
        right
        rw [List.takeWhile_cons] at he
        split at he
        · cases he
        · next hc => simpa using hc
    · cases h1
  · rintro ⟨rfl, h⟩
    have : t.takeWhile (fun c => !set.contains c) = [] := by
      rcases h with rfl | h
      · rfl
      · cases t with
        | nil => rfl
        | cons c t =>
          have h' : set.contains c = true := by simpa using h
          rw [List.takeWhile_cons, h']
          rfl
    rw [if_pos this, dropWhile_of_takeWhile_nil this]

theorem parseUint32_iff {s t : Str} {n v : Nat} : parseUint32 s = .ok (n, some v, t) ↔
    ∃ d, s = d ++ t ∧ Number d v ∧ n = d.length ∧ IsDec (peek t) = false := by
  constructor
  · intro h
    rw [C25_uint32] at h
    simp only at h
    injection h with h
    split at h
    · next hc =>
      simp only [Prod.mk.injEq, Option.some.injEq] at h
      obtain ⟨h1, h2, h3⟩ := h
      refine ⟨s.takeWhile IsDec, ?_, ⟨hc.1, fun c hc => List.mem_takeWhile_imp hc, h2, h2 ▸ hc.2⟩, h1.symm, ?_⟩
      · rw [← h3, drop_takeWhile, List.takeWhile_append_dropWhile]
      · rw [drop_takeWhile] at h3
        cases ht : t with
        | nil => rfl
        | cons c r =>
          have := List.head_dropWhile_not IsDec (l := s) (by rw [h3, ht]; simp)
          have e : (List.dropWhile IsDec s).head? = some c := by rw [h3, ht]; rfl
          rw [List.head?_eq_some_head (by rw [h3, ht]; simp)] at e
          injection e with e
          rw [e] at this
          simpa using this
    · simp at h
  · rintro ⟨d, rfl, ⟨h1, h2, rfl, h4⟩, rfl, h5⟩
    exact parseUint32_digits h2 h1 h4 h5

/-- Skipping a text that is not empty succeeds exactly if the input begins with it. -/
theorem skipString_iff {s a t : Str} {n : Nat} (hn : n ≠ 0) : skipString s a = (n, t) ↔ s = a ++ t ∧ n = a.length := by
  constructor
  · intro h
    rcases skipString_cases s a with ⟨b, rfl, hb⟩ | hb
    · rw [hb] at h
      simp only [Prod.mk.injEq] at h
      exact ⟨by rw [h.2], h.1.symm⟩
    · rw [hb] at h
      simp only [Prod.mk.injEq] at h
      exact absurd h.1.symm hn
  · rintro ⟨rfl, rfl⟩
    exact skipString_append a t

theorem skipString_zero {s a : Str} (ha : a ≠ []) : (skipString s a).1 = 0 ↔ ¬ ∃ t, s = a ++ t := by
  constructor
  · rintro h ⟨t, rfl⟩
    rw [skipString_append] at h
    exact ha (List.length_eq_zero_iff.1 h)
  · intro h
    rcases skipString_cases s a with ⟨b, rfl, hb⟩ | hb
    · exact absurd ⟨b, rfl⟩ h
    · rw [hb]

theorem skipString_fail {s a : Str} (h : ¬ ∃ t, s = a ++ t) : skipString s a = (0, s) := by
  rcases skipString_cases s a with ⟨b, hs, hb⟩ | hb
  · exact absurd ⟨b, hs⟩ h
  · exact hb

theorem firstAt_exists {needle h : Str} (ho : ∃ pre rest, h = pre ++ needle ++ rest) : ∃ pre rest, FirstAt needle h pre rest := by
  classical
  have : ∃ n, ∃ pre rest, h = pre ++ needle ++ rest ∧ pre.length = n := by
    obtain ⟨pre, rest, e⟩ := ho; exact ⟨_, pre, rest, e, rfl⟩
  have hmin := Nat.find_spec this
  obtain ⟨pre, rest, e, hl⟩ := hmin
  refine ⟨pre, rest, e, fun pre' rest' e' => ?_⟩
  rw [hl]
  exact Nat.find_min' this ⟨pre', rest', e', rfl⟩

theorem FirstAt.unique {needle h pre rest pre' rest' : Str} (h1 : FirstAt needle h pre rest) (h2 : FirstAt needle h pre' rest') :
    pre = pre' ∧ rest = rest' := by
  have hl : pre.length = pre'.length := Nat.le_antisymm (h1.2 _ _ h2.1) (h2.2 _ _ h1.1)
  have e := h1.1.symm.trans h2.1
  rw [List.append_assoc, List.append_assoc] at e
  obtain ⟨e1, e2⟩ := List.append_inj e hl
  exact ⟨e1, List.append_cancel_left e2⟩

theorem strstr_some {h needle t : Str} (hne : needle ≠ []) (hnul : NoNul needle) :
    (strstrLocation h needle).1 = some t ↔ ∃ pre rest, FirstAt needle h pre rest ∧ t = needle ++ rest := by
  constructor
  · intro hs
    by_cases ho : ∃ pre rest, h = pre ++ needle ++ rest
    · obtain ⟨pre, rest, hf⟩ := firstAt_exists ho
      have := (C28_strstr h needle hne hnul).1 pre rest hf.1 hf.2
      rw [this] at hs
      injection hs with hs
      exact ⟨pre, rest, hf, hs.symm⟩
    · rw [(C28_strstr h needle hne hnul).2 ho] at hs
      cases hs
  · rintro ⟨pre, rest, hf, rfl⟩
    rw [(C28_strstr h needle hne hnul).1 pre rest hf.1 hf.2]

theorem strstr_none {h needle : Str} (hne : needle ≠ []) (hnul : NoNul needle) :
    (strstrLocation h needle).1 = none ↔ ¬ ∃ pre rest, h = pre ++ needle ++ rest := by
  constructor
  · rintro hs ⟨pre, rest, e⟩
    obtain ⟨pre, rest, hf⟩ := firstAt_exists ⟨pre, rest, e⟩
    rw [(strstr_some hne hnul).2 ⟨pre, rest, hf, rfl⟩] at hs
    cases hs
  · exact (C28_strstr h needle hne hnul).2

theorem skipChar_iff {s t : Str} {c : Char} (hc : c ≠ '\x00') : skipChar s c = .ok (true, t) ↔ s = c :: t := by
  constructor
  · intro h
    by_cases hp : peek s = c
    · cases s with
      | nil => exact absurd hp.symm hc
      | cons d s =>
        have : d = c := hp
        subst this
        rw [skipChar_cons hc] at h
        injection h with h
        rw [Prod.mk.injEq] at h
        rw [h.2]
    · rw [skipChar_not hc hp] at h
      injection h with h
      simp at h
  · rintro rfl
    exact skipChar_cons hc t

theorem skipChar_false {s t : Str} {c : Char} (hc : c ≠ '\x00') : skipChar s c = .ok (false, t) ↔ t = s ∧ peek s ≠ c := by
  constructor
  · intro h
    by_cases hp : peek s = c
    · cases s with
      | nil => exact absurd hp.symm hc
      | cons d s =>
        have : d = c := hp
        subst this
        rw [skipChar_cons hc] at h
        injection h with h
        simp at h
    · rw [skipChar_not hc hp] at h
      injection h with h
      rw [Prod.mk.injEq] at h
      exact ⟨h.2.symm, hp⟩
  · rintro ⟨rfl, h⟩
    exact skipChar_not hc h

theorem bind_ok_iff {α β : Type} {x : Out α} {f : α → Out β} {r : β} : (x >>= f) = .ok r ↔ ∃ a, x = .ok a ∧ f a = .ok r := by
  cases x with
  | ok a => rw [Out.bind_ok]; exact ⟨fun h => ⟨a, rfl, h⟩, by rintro ⟨b, h, h'⟩; injection h with h; rw [h]; exact h'⟩
  | abort => exact ⟨(fun h => by cases h), by rintro ⟨a, h, -⟩; cases h⟩
  | ub => exact ⟨(fun h => by cases h), by rintro ⟨a, h, -⟩; cases h⟩

theorem notin {c : Char} {x : Str} (h : ∀ d ∈ x, d ∉ [c]) : c ∉ x := fun hc => h c hc (by simp)
theorem notin' {c : Char} {x : Str} (h : c ∉ x) : ∀ d ∈ x, d ∉ [c] := by
  intro d hd hm
  simp only [List.mem_singleton] at hm
  exact h (hm ▸ hd)

/-- Every text ends in a longest run of decimal digits. -/
theorem digits_end (q : Str) : ∃ pre ds, q = pre ++ ds ∧ (∀ c ∈ ds, IsDec c = true) ∧
    (pre = [] ∨ ∃ a c, pre = a ++ [c] ∧ IsDec c = false) := by
  induction q using List.reverseRecOn with
  | nil => exact ⟨[], [], rfl, by simp, .inl rfl⟩
  | append_singleton q d ih =>
    by_cases hd : IsDec d = true
    · obtain ⟨pre, ds, rfl, h1, h2⟩ := ih
      refine ⟨pre, ds ++ [d], by simp, ?_, h2⟩
      intro c hc
      rcases List.mem_append.1 hc with hc | hc
      · exact h1 c hc
      · rw [List.mem_singleton.1 hc]; exact hd
    · exact ⟨q ++ [d], [], by simp, by simp, .inr ⟨q, d, rfl, by simpa using hd⟩⟩

/-- The last occurrence of a character. -/
theorem last_occurrence (c : Char) (q : Str) (h : c ∈ q) : ∃ a b, q = a ++ c :: b ∧ c ∉ b := by
  induction q with
  | nil => cases h
  | cons d q ih =>
    by_cases hq : c ∈ q
    · obtain ⟨a, b, rfl, hb⟩ := ih hq
      exact ⟨d :: a, b, rfl, hb⟩
    · rcases List.mem_cons.1 h with rfl | h
      · exact ⟨[], q, rfl, hq⟩
      · exact absurd h hq

end Satyr.CStr
