import Verif.CStr.Exact
/-!
# Reading a text that was cut off

Two runs of the same function: one on a position in a text that ends with a newline, the other on the same position if more text
follows.
-/
namespace Satyr.CStr

/-- Both runs end properly, with related results. -/
def Same {A B : Type} (R : A → B → Prop) (x : Out A) (y : Out B) : Prop := ∃ a b, x = .ok a ∧ y = .ok b ∧ R a b

variable {A B C D : Type}

theorem Same.ok {R : A → B → Prop} {a : A} {b : B} (h : R a b) : Same R (.ok a) (.ok b) := ⟨a, b, rfl, rfl, h⟩

theorem Same.bind {R : A → B → Prop} {S : C → D → Prop} {x : Out A} {y : Out B} {f : A → Out C} {g : B → Out D} (h : Same R x y)
    (hf : ∀ a b, R a b → Same S (f a) (g b)) : Same S (x >>= f) (y >>= g) := by
  obtain ⟨a, b, rfl, rfl, h⟩ := h
  exact hf a b h

theorem Same.ite {R : A → B → Prop} {p : Prop} [Decidable p] {x x' : Out A} {y y' : Out B} (h : p → Same R x y) (h' : ¬ p → Same R x' y') :
    Same R (if p then x else x') (if p then y else y') := by
  by_cases hp : p
  · rw [if_pos hp, if_pos hp]; exact h hp
  · rw [if_neg hp, if_neg hp]; exact h' hp

theorem Same.mono {R S : A → B → Prop} {x : Out A} {y : Out B} (h : Same R x y) (hs : ∀ a b, R a b → S a b) : Same S x y := by
  obtain ⟨a, b, h1, h2, h⟩ := h
  exact ⟨a, b, h1, h2, hs a b h⟩

/-- A position in the text `s` before its end. -/
def In (s u : Str) : Prop := u <:+ s ∧ u ≠ []

/-- The text ends with a newline. -/
def EndsLine (s : Str) : Prop := ∃ v, s = v ++ ['\n']

theorem EndsLine.of {s : Str} (h : s.getLast? = some '\n') : EndsLine s := List.getLast?_eq_some_iff.1 h

theorem In.newline {s u : Str} (hs : EndsLine s) (h : In s u) : '\n' ∈ u := by
  obtain ⟨v, rfl⟩ := hs
  obtain ⟨⟨w, e⟩, hne⟩ := h
  obtain ⟨u', c, rfl⟩ := List.eq_nil_or_concat u |>.resolve_left hne
  rw [List.concat_eq_append, ← List.append_assoc] at e
  have := (List.append_inj' e rfl).2
  rw [List.concat_eq_append]
  simp at this
  simp [this]

theorem In.suffix {s u v : Str} (h : In s u) (hv : v <:+ u) (hne : v ≠ []) : In s v := ⟨hv.trans h.1, hne⟩

/-- The same value, and the same position. -/
def Pair (s T : Str) (a b : A × Str) : Prop := a.1 = b.1 ∧ In s a.2 ∧ b.2 = a.2 ++ T

/-- The same value, and the same position or the end of the shorter text. -/
def PairEnd (s T : Str) (a b : A × Str) : Prop := a.1 = b.1 ∧ a.2 <:+ s ∧ b.2 = a.2 ++ T

/-- The same result, if there is one. -/
def OptPair (s T : Str) (a b : Option (A × Str)) : Prop :=
  (a = none ∧ b = none) ∨ ∃ x r, a = some (x, r) ∧ b = some (x, r ++ T) ∧ In s r

def OptEnd (s T : Str) (a b : Option (A × Str)) : Prop :=
  (a = none ∧ b = none) ∨ ∃ x r, a = some (x, r) ∧ b = some (x, r ++ T) ∧ r <:+ s

theorem OptPair.toEnd {s T : Str} {a b : Option (A × Str)} (h : OptPair s T a b) : OptEnd s T a b := by
  rcases h with h | ⟨x, r, h1, h2, h3⟩
  · exact .inl h
  · exact .inr ⟨x, r, h1, h2, h3.1⟩

variable {s T u : Str}

theorem peek_in (h : In s u) : peek (u ++ T) = peek u := by
  cases u with
  | nil => exact absurd rfl h.2
  | cons c u => rfl

theorem takeWhile_cut {p : Char → Bool} (h : ∃ c ∈ u, p c = false) : (u ++ T).takeWhile p = u.takeWhile p ∧
    u.drop (u.takeWhile p).length ≠ [] := by
  induction u with
  | nil => simp at h
  | cons c u ih =>
    rw [List.cons_append, List.takeWhile_cons, List.takeWhile_cons]
    cases hc : p c with
    | false => simp
    | true =>
      obtain ⟨d, hd, hp⟩ := h
      rcases List.mem_cons.1 hd with rfl | hd
      · rw [hc] at hp; cases hp
      · obtain ⟨h1, h2⟩ := ih ⟨d, hd, hp⟩
        rw [if_pos rfl, if_pos rfl, h1]
        exact ⟨rfl, by simpa using h2⟩

theorem takeWhile_le (p : Char → Bool) (u : Str) : (u.takeWhile p).length ≤ u.length := (List.takeWhile_prefix p).length_le

theorem take_cut (n : Nat) (h : n ≤ u.length) : (u ++ T).take n = u.take n := List.take_append_of_le_length h

theorem drop_cut (n : Nat) (h : n ≤ u.length) : (u ++ T).drop n = u.drop n ++ T := List.drop_append_of_le_length h

/-- The functions that skip or take a run of characters. -/
theorem run_cut {p : Char → Bool} {F : Str → Out (A × Str)} (f : Str → Nat → A) (z : Str → A)
    (hF : ∀ v, F v = if (v.takeWhile p).length = 0 then .ok (z v, v) else (advanceBy v (v.takeWhile p).length).bind fun t => .ok (f v (v.takeWhile p).length, t))
    (hf : f (u ++ T) (u.takeWhile p).length = f u (u.takeWhile p).length) (hz : z (u ++ T) = z u)
    (hu : In s u) (h : ∃ c ∈ u, p c = false) : Same (Pair s T) (F u) (F (u ++ T)) := by
  rw [hF u, hF (u ++ T)]
  obtain ⟨e, hne⟩ := takeWhile_cut (T := T) h
  rw [e]
  refine Same.ite (fun _ => .ok ⟨hz.symm, hu, rfl⟩) fun _ => ?_
  have hl := takeWhile_le p u
  unfold advanceBy
  rw [if_pos hl, if_pos (by rw [List.length_append]; omega), drop_cut _ hl]
  exact .ok ⟨hf.symm, hu.suffix (List.drop_suffix _ _) hne, rfl⟩

theorem span_cut (hu : In s u) {set : Str} (h : ∃ c ∈ u, c ∉ set) : Same (Pair s T) (skipCharSpan u set) (skipCharSpan (u ++ T) set) :=
  run_cut (p := fun c => set.contains c) (F := fun v => skipCharSpan v set) (fun _ n => n) (fun _ => 0) (fun _ => rfl) rfl rfl hu
    (by obtain ⟨c, h1, h2⟩ := h; exact ⟨c, h1, by simpa using h2⟩)

theorem cspan_cut (hu : In s u) {set : Str} (h : ∃ c ∈ u, c ∈ set) : Same (Pair s T) (skipCharCspan u set) (skipCharCspan (u ++ T) set) :=
  run_cut (p := fun c => !set.contains c) (F := fun v => skipCharCspan v set) (fun _ n => n) (fun _ => 0) (fun _ => rfl) rfl rfl hu
    (by obtain ⟨c, h1, h2⟩ := h; exact ⟨c, h1, by simpa using h2⟩)

theorem parseSpan_cut (hu : In s u) {set : Str} (h : ∃ c ∈ u, c ∉ set) : Same (Pair s T) (parseCharSpan u set) (parseCharSpan (u ++ T) set) :=
  run_cut (p := fun c => set.contains c) (F := fun v => parseCharSpan v set) (fun v n => some (strndup v n)) (fun _ => none) (fun _ => rfl)
    (by rw [strndup, take_cut _ (takeWhile_le _ _)]; rfl) rfl hu (by obtain ⟨c, h1, h2⟩ := h; exact ⟨c, h1, by simpa using h2⟩)

theorem parseCspan_cut (hu : In s u) {set : Str} (h : ∃ c ∈ u, c ∈ set) : Same (Pair s T) (parseCharCspan u set) (parseCharCspan (u ++ T) set) :=
  run_cut (p := fun c => !set.contains c) (F := fun v => parseCharCspan v set) (fun v n => some (strndup v n)) (fun _ => none) (fun _ => rfl)
    (by rw [strndup, take_cut _ (takeWhile_le _ _)]; rfl) rfl hu (by obtain ⟨c, h1, h2⟩ := h; exact ⟨c, h1, by simpa using h2⟩)

theorem skipChar_end (hu : In s u) (c : Char) : Same (PairEnd s T) (skipChar u c) (skipChar (u ++ T) c) := by
  unfold skipChar
  rw [peek_in hu]
  refine Same.ite (fun _ => .ok ⟨rfl, hu.1, rfl⟩) fun _ => ?_
  cases u with
  | nil => exact absurd rfl hu.2
  | cons d u => exact .ok ⟨rfl, (List.suffix_cons d u).trans hu.1, rfl⟩

theorem skipChar_cut (hs : EndsLine s) (hu : In s u) {c : Char} (hc : c ≠ '\n') : Same (Pair s T) (skipChar u c) (skipChar (u ++ T) c) := by
  unfold skipChar
  rw [peek_in hu]
  by_cases hp : peek u ≠ c
  · rw [if_pos hp, if_pos hp]
    exact .ok ⟨rfl, hu, rfl⟩
  · rw [if_neg hp, if_neg hp]
    cases u with
    | nil => exact absurd rfl hu.2
    | cons d u =>
      have hd : d = c := by simpa [peek] using hp
      refine .ok ⟨rfl, hu.suffix (List.suffix_cons d u) ?_, rfl⟩
      rintro rfl
      have := hu.newline hs
      simp at this
      exact hc (hd ▸ this.symm)

theorem skipString_end (hs : EndsLine s) (hu : In s u) (a : Str) (ha : '\n' ∉ a.dropLast) :
    skipString (u ++ T) a = ((skipString u a).1, (skipString u a).2 ++ T) ∧ (skipString u a).2 <:+ s := by
  rcases skipString_cases u a with ⟨b, hb, he⟩ | he
  · rw [he, hb, List.append_assoc, skipString_append]
    exact ⟨rfl, List.IsSuffix.trans ⟨a, hb.symm⟩ hu.1⟩
  · rw [he]
    refine ⟨?_, hu.1⟩
    by_cases h : ∃ t, u ++ T = a ++ t
    · obtain ⟨t, ht⟩ := h
      rcases List.append_eq_append_iff.1 ht with ⟨x, h1, h2⟩ | ⟨x, h1, h2⟩
      · -- `a = u ++ x`
        cases x with
        | nil =>
          rw [List.append_nil] at h1
          subst h1
          have := skipString_append a []
          rw [List.append_nil] at this
          rw [this] at he
          have : a = [] := by
            have := congrArg Prod.fst he
            simpa using this
          exact absurd this hu.2
        | cons c x =>
          exfalso
          refine ha ?_
          have hn := hu.newline hs
          rw [h1, List.dropLast_append_of_ne_nil (by simp)]
          exact List.mem_append_left _ hn
      · rw [h1, skipString_append] at he
        have h0 : a = [] := by
          have := congrArg Prod.fst he
          simpa using this
        subst h0
        exact skipString_append [] (u ++ T)
    · exact skipString_fail h

theorem skipString_cut (hs : EndsLine s) (hu : In s u) (a : Str) (ha : '\n' ∉ a) :
    skipString (u ++ T) a = ((skipString u a).1, (skipString u a).2 ++ T) ∧ In s (skipString u a).2 := by
  obtain ⟨h1, h2⟩ := skipString_end (T := T) hs hu a fun h => ha (List.dropLast_subset _ h)
  refine ⟨h1, h2, fun h => ?_⟩
  rcases skipString_cases u a with ⟨b, hb, he⟩ | he
  · rw [he] at h
    dsimp only at h
    subst h
    rw [List.append_nil] at hb
    exact ha (hb ▸ hu.newline hs)
  · rw [he] at h
    exact hu.2 h

/-- The same number, and the same position. -/
def Trip (s T : Str) (a b : Nat × Option Nat × Str) : Prop := a.1 = b.1 ∧ a.2.1 = b.2.1 ∧ In s a.2.2 ∧ b.2.2 = a.2.2 ++ T

theorem hex_cut (hs : EndsLine s) (hu : In s u) : Same (Trip s T) (parseHexUint64 u) (parseHexUint64 (u ++ T)) := by
  unfold parseHexUint64
  refine (parseSpan_cut hu ⟨'\n', hu.newline hs, by decide⟩).bind ?_
  rintro ⟨n, r⟩ ⟨-, -⟩ ⟨rfl, hr, rfl⟩
  cases n with
  | none => exact .ok ⟨rfl, rfl, hu, rfl⟩
  | some n => exact Same.ite (fun _ => .ok ⟨rfl, rfl, hu, rfl⟩) fun _ => .ok ⟨rfl, rfl, hr, rfl⟩

theorem hex0x_cut (hs : EndsLine s) (hu : In s u) : Same (Trip s T) (parseHex0xUint64 u) (parseHex0xUint64 (u ++ T)) := by
  unfold parseHex0xUint64
  refine (skipChar_cut hs hu (by decide)).bind ?_
  rintro ⟨b, r⟩ ⟨-, -⟩ ⟨rfl, hr, rfl⟩
  refine Same.ite (fun _ => .ok ⟨rfl, rfl, hu, rfl⟩) fun _ => (skipChar_cut hs hr (by decide)).bind ?_
  rintro ⟨b, r⟩ ⟨-, -⟩ ⟨rfl, hr, rfl⟩
  refine Same.ite (fun _ => .ok ⟨rfl, rfl, hu, rfl⟩) fun _ => (hex_cut hs hr).bind ?_
  rintro ⟨n, v, r⟩ ⟨-, -, -⟩ ⟨rfl, rfl, hr, rfl⟩
  exact Same.ite (fun _ => .ok ⟨rfl, rfl, hu, rfl⟩) fun _ => .ok ⟨rfl, rfl, hr, rfl⟩

end Satyr.CStr
