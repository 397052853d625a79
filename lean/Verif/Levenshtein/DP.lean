import Verif.Levenshtein.Lemmas
/-! The diagonal dynamic program computes `D`. -/
namespace Satyr.Levenshtein

variable {F : Type} (eq : F → F → Bool) (sw : Bool)

/-- If three sides of a rectangle are equal, so is the fourth. Holds for every symmetric and transitive `eq`. -/
def Rect : Prop := ∀ x1 x2 y1 y2, eq x2 y2 = true → eq x2 y1 = true → eq x1 y2 = true → eq x1 y1 = true

/-- Value of cell `(i, j)`: distance of the prefixes. -/
def P (a b : List F) (i j : Nat) : Nat := D eq sw (a.take i).reverse (b.take j).reverse

theorem take_succ_reverse {a : List F} {i : Nat} {x : F} (h : a[i]? = some x) :
    (a.take (i + 1)).reverse = x :: (a.take i).reverse := by
  rw [List.take_add_one, h]; simp

/-- The computation of one cell. -/
theorem cell_eq (hr : sw = false ∨ Rect eq) {a b : List F} {m i j : Nat} {x y : F} {prev prev2 : Option F} {s : St}
    (hx : a[i]? = some x) (hy : b[j]? = some y) (him : i < m)
    (hp : 1 ≤ i → prev = a[i - 1]?) (hp2 : 1 ≤ j → prev2 = b[j - 1]?)
    (h0 : s.dist[m + j - i]? = some (P eq sw a b i j))
    (h1 : s.dist[m + j - (i + 1)]? = some (P eq sw a b (i + 1) j))
    (h2 : s.dist[m + j + 1 - i]? = some (P eq sw a b i (j + 1)))
    (h3 : ∃ v, s.dist1[m + j - i]? = some v)
    (h4 : 1 ≤ i → 1 ≤ j → s.dist1[m + j - i]? = some (some (P eq sw a b (i - 1) (j - 1)))) :
    cell eq sw m (i + 1) (j + 1) x y prev prev2 s =
      .ok { dist := s.dist.set (m + j - i) (P eq sw a b (i + 1) (j + 1))
            dist1 := s.dist1.set (m + j - i) (some (P eq sw a b i j)) } := by
  have hl : m + (j + 1) - (i + 1) = m + j - i := by omega
  have hl1 : m + j - i - 1 = m + j - (i + 1) := by omega
  have hl2 : m + j - i + 1 = m + j + 1 - i := by omega
  obtain ⟨v, h3⟩ := h3
  have b0 : m + j - i < s.dist.length := (List.getElem?_eq_some_iff.1 h0).1
  have b1 : m + j - i < s.dist1.length := (List.getElem?_eq_some_iff.1 h3).1
  unfold cell
  simp only [hl, hl1, hl2, rd, wr, h0, h1, h2, h3, b0, b1, if_true, Out.bind_ok]
  have hP : P eq sw a b (i + 1) (j + 1) = D eq sw (x :: (a.take i).reverse) (y :: (b.take j).reverse) := by
    unfold P; rw [take_succ_reverse hx, take_succ_reverse hy]
  have hP1 : P eq sw a b (i + 1) j = D eq sw (x :: (a.take i).reverse) (b.take j).reverse := by
    unfold P; rw [take_succ_reverse hx]
  have hP2 : P eq sw a b i (j + 1) = D eq sw (a.take i).reverse (y :: (b.take j).reverse) := by
    unfold P; rw [take_succ_reverse hy]
  -- decomposition of the prefixes when both are non-empty
  have hprev : ∀ (_ : 1 ≤ i) (_ : 1 ≤ j), ∃ x1 y1, prev = some x1 ∧ prev2 = some y1 ∧ v = some (P eq sw a b (i - 1) (j - 1)) ∧
      (a.take i).reverse = x1 :: (a.take (i - 1)).reverse ∧ (b.take j).reverse = y1 :: (b.take (j - 1)).reverse := by
    intro hi hj
    have ia : i - 1 < a.length := by have := (List.getElem?_eq_some_iff.1 hx).1; omega
    have jb : j - 1 < b.length := by have := (List.getElem?_eq_some_iff.1 hy).1; omega
    refine ⟨a[i - 1], b[j - 1], ?_, ?_, ?_, ?_, ?_⟩
    · rw [hp hi, List.getElem?_eq_getElem ia]
    · rw [hp2 hj, List.getElem?_eq_getElem jb]
    · have := h4 hi hj; rw [h3] at this; injection this
    · have := take_succ_reverse (List.getElem?_eq_getElem ia)
      rw [show i - 1 + 1 = i from by omega] at this; exact this
    · have := take_succ_reverse (List.getElem?_eq_getElem jb)
      rw [show j - 1 + 1 = j from by omega] at this; exact this
  by_cases he : eq x y = true
  · -- equal frames
    simp only [he, if_true]
    have hd : P eq sw a b (i + 1) (j + 1) = P eq sw a b i j := by rw [hP, D_eq eq sw _ _ he]; rfl
    have ht : transpose eq sw (i + 1) (j + 1) (P eq sw a b i j) v 0 x y prev prev2 = .ok (P eq sw a b i j) := by
      unfold transpose
      split
      · next hc =>
        simp only [Bool.and_eq_true, decide_eq_true_eq] at hc
        obtain ⟨x1, y1, q1, q2, q3, q4, q5⟩ := hprev (by omega) (by omega)
        simp only [q1, q2, q3]
        split
        · next hgt =>
          split
          · next e1 =>
            split
            · next e2 =>
              exfalso
              rcases hr with hr | hr
              · rw [hr] at hc; simp at hc
              · have e3 := hr x1 x y1 y he e1 e2
                have : P eq sw a b i j = P eq sw a b (i - 1) (j - 1) := by
                  unfold P; rw [q4, q5, D_eq eq sw _ _ e3]
                omega
            · rfl
          · rfl
        · rfl
      · rfl
    rw [ht, hd]; rfl
  · have he' : eq x y = false := by simpa using he
    simp only [he', Bool.false_eq_true, if_false]
    have hmin : (if (if P eq sw a b i j + 1 > P eq sw a b (i + 1) j + 1 then P eq sw a b (i + 1) j + 1 else P eq sw a b i j + 1) >
          P eq sw a b i (j + 1) + 1 then P eq sw a b i (j + 1) + 1
        else if P eq sw a b i j + 1 > P eq sw a b (i + 1) j + 1 then P eq sw a b (i + 1) j + 1 else P eq sw a b i j + 1) =
        min (min (P eq sw a b i j) (P eq sw a b (i + 1) j)) (P eq sw a b i (j + 1)) + 1 := by
      split <;> split <;> omega
    rw [hmin]
    have hd : P eq sw a b (i + 1) (j + 1) = swapCand eq sw x y (a.take i).reverse (b.take j).reverse
        (min (min (P eq sw a b i j) (P eq sw a b (i + 1) j)) (P eq sw a b i (j + 1)) + 1) := by
      rw [hP, D_ne eq sw _ _ he', ← hP1, ← hP2]; rfl
    generalize min (min (P eq sw a b i j) (P eq sw a b (i + 1) j)) (P eq sw a b i (j + 1)) + 1 = dl at hd ⊢
    have ht : transpose eq sw (i + 1) (j + 1) dl v 1 x y prev prev2 = .ok (P eq sw a b (i + 1) (j + 1)) := by
      rw [hd]
      unfold transpose
      by_cases hij : 1 ≤ i ∧ 1 ≤ j
      · obtain ⟨x1, y1, q1, q2, q3, q4, q5⟩ := hprev hij.1 hij.2
        have d1 : decide (i + 1 ≥ 2) = true := by simp; omega
        have d2 : decide (j + 1 ≥ 2) = true := by simp; omega
        simp only [q1, q2, q3, q4, q5, d1, d2, Bool.and_true, swapCand]
        rw [show D eq sw (a.take (i - 1)).reverse (b.take (j - 1)).reverse = P eq sw a b (i - 1) (j - 1) from rfl]
        by_cases hs : sw = true
        · simp only [hs, Bool.true_and, if_true]
          by_cases e1 : eq x y1 = true
          · by_cases e2 : eq x1 y = true
            · simp only [e1, e2, Bool.and_self, if_true]
              split
              · congr 1; omega
              · congr 1; omega
            · simp only [e1, e2]; simp
          · simp only [e1]; simp
        · simp [hs]
      · have : (sw && decide (i + 1 ≥ 2) && decide (j + 1 ≥ 2)) = false := by
          by_cases hi : 1 ≤ i
          · have : ¬ (j + 1 ≥ 2) := by omega
            simp [this]
          · have : ¬ (i + 1 ≥ 2) := by omega
            simp [this]
        rw [this]
        simp only [Bool.false_eq_true, if_false]
        unfold swapCand
        rcases i with _ | i
        · simp
        · rcases j with _ | j
          · simp
          · omega
    rw [ht]; rfl

/-- Loop invariant: row `j` (0-based), next column `i` (0-based). -/
structure Inv (a b : List F) (i j : Nat) (s : St) : Prop where
  i1 : j < b.length → ∀ i', i' ≤ i → s.dist[a.length + 1 + j + 1 - i']? = some (P eq sw a b i' (j + 1))
  i2 : ∀ i', i ≤ i' → i' ≤ a.length → s.dist[a.length + 1 + j - i']? = some (P eq sw a b i' j)
  i3 : ∀ j', j + 1 ≤ j' → j' ≤ b.length + 1 → s.dist[a.length + 1 + j']? = some j'
  l1 : s.dist1.length = a.length + 1 + (b.length + 1) + 1
  j1 : ∀ i', i' < i → s.dist1[a.length + 1 + j - i']? = some (some (P eq sw a b i' j))
  j2 : 1 ≤ j → ∀ i', i ≤ i' + 1 → i' < a.length →
    s.dist1[a.length + 1 + j - (i' + 1)]? = some (some (P eq sw a b i' (j - 1)))

theorem inner_eq (hr : sw = false ∨ Rect eq) {a b : List F} {j : Nat} {y : F} {prev2 : Option F}
    (hy : b[j]? = some y) (hp2 : 1 ≤ j → prev2 = b[j - 1]?) (k i : Nat) (hk : i + k = a.length)
    (prev : Option F) (hp : 1 ≤ i → prev = a[i - 1]?) (s : St) (hI : Inv eq sw a b i j s) :
    ∃ s' prev', inner eq sw (a.length + 1) (j + 1) y prev2 (a.drop i) (i + 1) prev s = .ok (s', prev') ∧
      Inv eq sw a b a.length j s' := by
  induction k generalizing i prev s with
  | zero =>
    have : i = a.length := by omega
    subst this
    refine ⟨s, prev, ?_, hI⟩
    rw [List.drop_length]; rfl
  | succ k ih =>
    have hia : i < a.length := by omega
    have hjb : j < b.length := (List.getElem?_eq_some_iff.1 hy).1
    have hx : a[i]? = some a[i] := List.getElem?_eq_getElem hia
    rw [List.drop_eq_getElem_cons hia]
    simp only [inner]
    have h3 : a.length + 1 + j - i < s.dist1.length := by rw [hI.l1]; omega
    have hc := cell_eq eq sw hr (m := a.length + 1) (prev := prev) (prev2 := prev2) (s := s) hx hy (by omega) hp hp2
      (hI.i2 i (Nat.le_refl _) (by omega)) (hI.i2 (i + 1) (by omega) (by omega))
      (hI.i1 hjb i (Nat.le_refl _)) ⟨_, List.getElem?_eq_getElem h3⟩
      (fun h1 h2 => by
        have := hI.j2 h2 (i - 1) (by omega) (by omega)
        rw [show i - 1 + 1 = i from by omega] at this; exact this)
    rw [hc, Out.bind_ok]
    have hl : a.length + 1 + j - i < s.dist.length :=
      (List.getElem?_eq_some_iff.1 (hI.i2 i (Nat.le_refl _) (by omega))).1
    apply ih (i + 1) (by omega) (some a[i]) (fun _ => by simp [hx])
    refine ⟨?_, ?_, ?_, ?_, ?_, ?_⟩
    · intro _ i' h'
      rcases Nat.lt_or_ge i i' with h1 | h1
      · have : i' = i + 1 := by omega
        subst this
        simp only
        rw [show a.length + 1 + j + 1 - (i + 1) = a.length + 1 + j - i from by omega, List.getElem?_set_self hl]
      · simp only
        rw [List.getElem?_set_ne (by omega)]; exact hI.i1 hjb i' h1
    · intro i' h1 h2
      simp only
      rw [List.getElem?_set_ne (by omega)]; exact hI.i2 i' (by omega) h2
    · intro j' h1 h2
      simp only
      rw [List.getElem?_set_ne (by omega)]; exact hI.i3 j' h1 h2
    · simpa using hI.l1
    · intro i' h'
      rcases Nat.lt_or_ge i' i with h1 | h1
      · simp only
        rw [List.getElem?_set_ne (by omega)]; exact hI.j1 i' h1
      · have : i' = i := by omega
        subst this
        simp only
        rw [List.getElem?_set_self h3]
    · intro hj i' h1 h2
      simp only
      rw [List.getElem?_set_ne (by omega)]; exact hI.j2 hj i' (by omega) h2

theorem outer_eq (hr : sw = false ∨ Rect eq) {a b : List F} (k j : Nat) (hk : j + k = b.length)
    (prev prev2 : Option F) (hp2 : 1 ≤ j → prev2 = b[j - 1]?) (s : St) (hI : Inv eq sw a b 0 j s) :
    ∃ s', outer eq sw (a.length + 1) a (b.drop j) (j + 1) prev prev2 s = .ok s' ∧ Inv eq sw a b 0 b.length s' := by
  induction k generalizing j prev prev2 s with
  | zero =>
    have : j = b.length := by omega
    subst this
    refine ⟨s, ?_, hI⟩
    rw [List.drop_length]; rfl
  | succ k ih =>
    have hjb : j < b.length := by omega
    have hy : b[j]? = some b[j] := List.getElem?_eq_getElem hjb
    rw [List.drop_eq_getElem_cons hjb]
    simp only [outer]
    obtain ⟨s1, prev', e, h⟩ := inner_eq eq sw hr hy hp2 a.length 0 (by omega) prev (by omega) s hI
    rw [List.drop_zero] at e
    rw [e, Out.bind_ok]
    simp only
    apply ih (j + 1) (by omega) prev' (some b[j]) (fun _ => by simp [hy])
    refine ⟨?_, ?_, ?_, h.l1, by omega, ?_⟩
    · intro hj1 i' hi'
      have : i' = 0 := by omega
      subst this
      have := h.i3 (j + 1 + 1) (by omega) (by omega)
      rw [show a.length + 1 + (j + 1) + 1 - 0 = a.length + 1 + (j + 1 + 1) from by omega, this]
      unfold P
      simp only [List.take_zero, List.reverse_nil, D_nil, List.length_reverse, List.length_take]
      congr 1; omega
    · intro i' _ h2
      have := h.i1 hjb i' h2
      rw [show a.length + 1 + (j + 1) - i' = a.length + 1 + j + 1 - i' from by omega]; exact this
    · intro j' h1 h2
      exact h.i3 j' (by omega) h2
    · intro _ i' _ h2
      have := h.j1 i' h2
      rw [show a.length + 1 + (j + 1) - (i' + 1) = a.length + 1 + j - i' from by omega]; exact this


theorem initial_inv (a b : List F) : Inv eq sw a b 0 0 (initial (a.length + 1) (b.length + 1)) := by
  have hd : ∀ k, k < a.length + 1 → (initial (a.length + 1) (b.length + 1)).dist[k]? = some (a.length + 1 - k) := by
    intro k hk
    simp only [initial]
    rw [List.getElem?_append_left (by simpa using hk)]
    simp [hk]
  have hd2 : ∀ k, k ≤ b.length + 1 → (initial (a.length + 1) (b.length + 1)).dist[a.length + 1 + k]? = some k := by
    intro k hk
    simp only [initial]
    rw [List.getElem?_append_right (by simp)]
    simp only [List.length_map, List.length_range, Nat.add_sub_cancel_left]
    rw [List.getElem?_range (by omega)]
  refine ⟨?_, ?_, ?_, by simp [initial], by omega, by omega⟩
  · intro hb i' hi'
    have : i' = 0 := by omega
    subst this
    rw [show a.length + 1 + 0 + 1 - 0 = a.length + 1 + 1 from by omega, hd2 1 (by omega)]
    unfold P
    simp only [List.take_zero, List.reverse_nil, D_nil, List.length_reverse, List.length_take]
    congr 1; omega
  · intro i' _ h2
    unfold P
    simp only [List.take_zero, List.reverse_nil, D_nil', List.length_reverse, List.length_take]
    rcases i' with _ | i'
    · rw [show a.length + 1 + 0 - 0 = a.length + 1 + 0 from by omega, hd2 0 (by omega)]; simp
    · rw [show a.length + 1 + 0 - (i' + 1) = a.length - i' from by omega, hd _ (by omega)]
      congr 1; omega
  · intro j' _ h2; exact hd2 j' h2

/-- The program computes `D`. -/
theorem rawDistance_eq (hr : sw = false ∨ Rect eq) (a b : List F) :
    rawDistance eq sw a b = .ok (D eq sw a.reverse b.reverse) := by
  unfold rawDistance
  obtain ⟨s, e, h⟩ := outer_eq eq sw hr b.length 0 (by omega) none none (by omega) _ (initial_inv eq sw a b)
  rw [List.drop_zero] at e
  simp only
  rw [e, Out.bind_ok]
  have := h.i2 a.length (by omega) (Nat.le_refl _)
  rw [show a.length + 1 + b.length - a.length = b.length + 1 from by omega] at this
  unfold rd
  rw [this]
  unfold P
  simp

end Satyr.Levenshtein
