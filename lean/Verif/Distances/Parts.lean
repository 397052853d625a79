import Verif.Distances.Lemmas
/-! Helper lemmas about the division of the matrix into parts. -/
namespace Satyr.Distances

/-- Position of the cursor after `k` steps from the first cell. -/
def walk (n : Nat) : Nat → Nat × Nat
  | 0 => (0, 1)
  | k + 1 => advance n (walk n k).1 (walk n k).2

theorem cellsFrom_walk (n len k : Nat) : cellsFrom n len (walk n k) = (List.range' k len).map (walk n) := by
  induction len generalizing k with
  | zero => rfl
  | succ len ih =>
    simp only [cellsFrom, List.range'_succ, List.map_cons]
    rw [show advance n (walk n k).1 (walk n k).2 = walk n (k + 1) from rfl, ih]

theorem walk_row {n k i j : Nat} (h : walk n k = (i, j)) (t : Nat) (ht : j + t < n) :
    walk n (k + t) = (i, j + t) := by
  induction t with
  | zero => simpa using h
  | succ t ih =>
    rw [← Nat.add_assoc, walk, ih (by omega)]
    simp only [advance]
    rw [if_neg (by omega)]; rfl

/-- Number of cells in the first `m` rows. -/
def cells (m n : Nat) : Nat := m * (m - 1) / 2 + m * (n - m)

theorem cells_succ {m n : Nat} (h : m + 1 < n) : cells (m + 1) n = cells m n + (n - (m + 1)) := by
  unfold cells
  have e : (m + 1) * (m + 1 - 1) / 2 = m * (m - 1) / 2 + m := by
    have : (m + 1) * (m + 1 - 1) = m * (m - 1) + m * 2 := by
      rcases m with _ | m
      · rfl
      · simp only [Nat.add_sub_cancel]; ring
    rw [this, Nat.add_mul_div_right _ _ (by decide)]
  rw [e]
  obtain ⟨t, rfl⟩ : ∃ t, n = m + 1 + (t + 1) := ⟨n - m - 2, by omega⟩
  have e1 : m + 1 + (t + 1) - (m + 1) = t + 1 := by omega
  have e2 : m + 1 + (t + 1) - m = t + 2 := by omega
  rw [e1, e2]; ring

theorem loopPairs_eq_walk {m n : Nat} (h : m < n) :
    loopPairs m n = (List.range (cells m n)).map (walk n) ∧ (m + 1 < n ∨ m = 0 → walk n (cells m n) = (m, m + 1)) := by
  induction m with
  | zero => simp [loopPairs, cells, walk]
  | succ m ih =>
    obtain ⟨ih1, ih2⟩ := ih (by omega)
    have hw := ih2 (Or.inl h)
    have hc := cells_succ h
    constructor
    · have e : loopPairs (m + 1) n = loopPairs m n ++ (List.range' (m + 1) (n - (m + 1))).map fun j => (m, j) := by
        simp [loopPairs, List.range_succ, List.flatMap_append]
      rw [e, ih1, hc, List.range_add, List.map_append, List.append_cancel_left_eq, List.range'_eq_map_range,
        List.map_map, List.map_map]
      apply List.map_congr_left
      intro t ht
      simp only [List.mem_range] at ht
      simp only [Function.comp]
      rw [walk_row hw t (by omega)]
    · intro h'
      have h'' : m + 1 + 1 < n := by omega
      rw [hc]
      obtain ⟨t, ht⟩ : ∃ t, n - (m + 1) = t + 1 := ⟨n - (m + 2), by omega⟩
      rw [ht, ← Nat.add_assoc, walk, walk_row hw t (by omega)]
      simp only [advance]
      rw [if_pos (by omega)]

/-- Length of part number `s` when `N` cells are divided into `k` parts. -/
def plen (N k s : Nat) : Nat := if s < N % k then N / k + 1 else N / k

/-- Start of part number `s`. -/
def pstart (N k s : Nat) : Nat := s * (N / k) + min s (N % k)

theorem pstart_succ (N k s : Nat) : pstart N k (s + 1) = pstart N k s + plen N k s := by
  unfold pstart plen
  rw [Nat.succ_mul]
  split <;> omega

theorem pstart_all {N k : Nat} (hk : 0 < k) : pstart N k k = N := by
  unfold pstart
  have := Nat.mod_lt N hk
  have := Nat.div_add_mod N k
  rw [Nat.min_eq_right (by omega)]; exact this

theorem pstart_mono {N k s t : Nat} (h : s ≤ t) : pstart N k s ≤ pstart N k t := by
  unfold pstart
  have := Nat.mul_le_mul_right (N / k) h
  omega

theorem plen_pos {N k t : Nat} (h : pstart N k t < N) : 0 < plen N k t := by
  unfold plen
  split
  · exact Nat.succ_pos _
  · next h1 =>
    rcases Nat.eq_zero_or_pos (N / k) with h2 | h2
    · have := Nat.div_add_mod N k
      unfold pstart at h
      rw [h2] at this h
      simp at this h
      omega
    · exact h2

theorem pstart_last {N k t : Nat} (hk : 0 < k) (h1 : pstart N k t < N) (h2 : N ≤ pstart N k (t + 1)) :
    t + 1 = min k N := by
  have hdm := Nat.div_add_mod N k
  have hmod := Nat.mod_lt N hk
  rcases Nat.eq_zero_or_pos (N / k) with h | h
  · unfold pstart at h1 h2
    rw [h] at hdm h1 h2
    simp at hdm h1 h2
    omega
  · have hNk : k ≤ N := by
      have := Nat.mul_le_mul_left k h
      omega
    have : t < k := by
      by_contra hc
      have := pstart_mono (N := N) (k := k) (s := k) (t := t) (by omega)
      rw [pstart_all hk] at this; omega
    have : ¬ (t + 1 < k) := by
      intro hc
      have a := pstart_mono (N := N) (k := k) (s := t + 1 + 1) (t := k) (by omega)
      rw [pstart_all hk] at a
      have b := pstart_succ N k (t + 1)
      have c : 0 < plen N k (t + 1) := by unfold plen; split <;> omega
      omega
    omega

/-- Part number `s`. -/
def mkPart (α : Type) (ty : DistType) (m n N k s : Nat) : Part α :=
  partNew α m n ty (walk n (pstart N k s)).1 (walk n (pstart N k s)).2 (plen N k s)

/-- State of the creation loop after `c` cells. -/
structure Inv (α : Type) (ty : DistType) (m n N k : Nat) (c t : Nat) (s : CreateSt α) : Prop where
  parts : s.parts = (List.range t).map (mkPart α ty m n N k)
  beg : (s.mBegin, s.nBegin) = walk n (pstart N k t)
  cnt : pstart N k t + s.counter = c
  le : s.counter ≤ s.perPart
  pos : t = 0 ∨ 0 < s.counter
  per : s.perPart = plen N k t
  left : s.leftover = N % k - t

theorem create_inv {α} {ty : DistType} {m n N k : Nat} (c : Nat) (hc : c ≤ N) :
    ∃ t, Inv α ty m n N k c t (((List.range c).map (walk n)).foldl (createStep m n ty)
      { parts := [], mBegin := 0, nBegin := 1, counter := 0,
        perPart := N / k + (if N % k ≠ 0 then 1 else 0), leftover := N % k }) := by
  induction c with
  | zero =>
    refine ⟨0, ⟨by simp, by simp [walk, pstart], by simp [pstart], by simp, Or.inl rfl, ?_, by simp⟩⟩
    simp only [plen, List.range_zero, List.map_nil, List.foldl_nil]
    split <;> split <;> omega
  | succ c ih =>
    obtain ⟨t, i⟩ := ih (by omega)
    rw [List.range_succ, List.map_append, List.foldl_append]
    generalize List.foldl (createStep m n ty) _ (List.map (walk n) (List.range c)) = s at i ⊢
    simp only [List.map_cons, List.map_nil, List.foldl_cons, List.foldl_nil]
    unfold createStep
    simp only
    split
    · next hgt =>
      have hcn : s.counter = s.perPart := by have := i.le; omega
      have hst : c = pstart N k (t + 1) := by
        rw [pstart_succ, ← i.per, ← hcn]; exact i.cnt.symm
      refine ⟨t + 1, ⟨?_, ?_, ?_, ?_, Or.inr (by simp), ?_, ?_⟩⟩
      · simp only [List.range_succ, List.map_append, i.parts, List.map_cons, List.map_nil, mkPart]
        have := i.beg
        rw [← this, i.per]
      · simp [hst]
      · simp only; omega
      · have := plen_pos (N := N) (k := k) (t := t + 1) (by omega)
        simp only
        have hp := i.per
        have hl := i.left
        unfold plen at this hp
        generalize N % k = r at *
        generalize N / k = q at *
        rcases Nat.lt_or_ge t r with h1 | h1
        · rw [if_pos h1] at hp
          rw [if_pos (by omega)]
          split
          · rw [if_neg (by omega)] at this; omega
          · omega
        · rw [if_neg (by omega)] at hp this
          rw [if_neg (by omega)]; omega
      · have hp := i.per
        have hl := i.left
        simp only
        unfold plen at hp ⊢
        generalize N % k = r at *
        generalize N / k = q at *
        rcases Nat.lt_or_ge t r with h1 | h1
        · rw [if_pos h1] at hp
          rw [if_pos (by omega)]
          split
          · rw [if_neg (by omega)]; omega
          · rw [if_pos (by omega)]; omega
        · rw [if_neg (by omega)] at hp ⊢
          rw [if_neg (by omega)]; omega
      · have hl := i.left
        simp only
        split <;> omega
    · next hgt =>
      refine ⟨t, ⟨i.parts, i.beg, ?_, by simp only; omega, Or.inr (by simp), i.per, i.left⟩⟩
      have := i.cnt
      simp only; omega

theorem cells_pos {m n : Nat} (h0 : 0 < m) (h : m < n) : 0 < cells m n := by
  unfold cells
  have : 0 < m * (n - m) := Nat.mul_pos h0 (by omega)
  omega

theorem mul_pred_even (m : Nat) : m * (m - 1) % 2 = 0 := by
  rcases m with _ | m
  · rfl
  · obtain ⟨k, hk⟩ := even_mul_succ m
    simp only [Nat.add_sub_cancel]
    rw [Nat.mul_comm]
    have : ((m * (m + 1) : Nat) : Int) = 2 * k := by push_cast; exact hk
    omega

/-- Closed form of the created parts. -/
theorem partCreate_eq (α : Type) (ty : DistType) {m n k : Nat} (h0 : 0 < min m (n - 1)) (hk : 0 < k) :
    partCreate α m n ty k = .ok ((List.range (min k (cells (min m (n - 1)) n))).map
      (mkPart α ty (min m (n - 1)) n (cells (min m (n - 1)) n) k)) := by
  have hm : (if m ≥ n then n - 1 else m) = min m (n - 1) := by split <;> omega
  unfold partCreate
  simp only [hm]
  generalize hM : min m (n - 1) = M at *
  have hlt : M < n := by omega
  rw [if_neg (by simp; omega), if_neg (by simp [mul_pred_even]), if_neg (by omega)]
  have hN : M * (M - 1) / 2 + M * (n - M) = cells M n := rfl
  rw [hN, (loopPairs_eq_walk hlt).1]
  obtain ⟨t, i⟩ := create_inv (α := α) (ty := ty) (m := M) (n := n) (N := cells M n) (k := k) (cells M n) (le_refl _)
  have hp := cells_pos h0 hlt
  generalize hS : List.foldl (createStep M n ty) _ (List.map (walk n) (List.range (cells M n))) = s at i ⊢
  have hcp : 0 < s.counter := by
    rcases i.pos with h | h
    · have := i.cnt; rw [h] at this; simp [pstart] at this; omega
    · exact h
  have hlast := pstart_last (N := cells M n) (t := t) hk (by have := i.cnt; omega)
    (by rw [pstart_succ, ← i.per]; have := i.cnt; have := i.le; omega)
  have hfull : pstart (cells M n) k (t + 1) = cells M n := by
    apply le_antisymm
    · rcases Nat.le_total (t + 1) k with h | h
      · have := pstart_mono (N := cells M n) (k := k) h; rw [pstart_all hk] at this; exact this
      · have : t + 1 = k := by omega
        rw [this, pstart_all hk]
    · rw [pstart_succ, ← i.per]; have := i.cnt; have := i.le; omega
  have hcnt : s.counter = s.perPart := by
    have h1 := i.cnt
    rw [pstart_succ, ← i.per] at hfull; omega
  rw [if_pos hcnt, ← hlast, List.range_succ, List.map_append, i.parts, hcnt]
  simp only [List.map_cons, List.map_nil, mkPart]
  rw [← i.beg, i.per]

/-- The cells visited by a part. -/
def Part.cells {α} (p : Part α) : List (Nat × Nat) := cellsFrom p.n p.len (p.mBegin, p.nBegin)

theorem mkPart_cells (α) (ty) (m n N k s : Nat) :
    (mkPart α ty m n N k s).cells = (List.range' (pstart N k s) (plen N k s)).map (walk n) := by
  simp only [Part.cells, mkPart, partNew]
  rw [cellsFrom_walk]

theorem flatMap_parts (α) (ty) (m n N k T : Nat) :
    ((List.range T).map (mkPart α ty m n N k)).flatMap Part.cells = (List.range (pstart N k T)).map (walk n) := by
  induction T with
  | zero => simp [pstart]
  | succ T ih =>
    rw [List.range_succ, List.map_append, List.flatMap_append, ih, pstart_succ]
    simp only [List.map_cons, List.map_nil, List.flatMap_cons, List.flatMap_nil, List.append_nil]
    rw [mkPart_cells, List.range_add, List.map_append, List.range'_eq_map_range]

theorem pstart_min {N k : Nat} (hk : 0 < k) : pstart N k (min k N) = N := by
  rcases Nat.le_total k N with h | h
  · rw [Nat.min_eq_left h, pstart_all hk]
  · rw [Nat.min_eq_right h]
    rcases Nat.lt_or_eq_of_le h with h | rfl
    · simp [pstart, Nat.div_eq_of_lt h, Nat.mod_eq_of_lt h]
    · exact pstart_all hk

theorem partCreate_cells (α : Type) {ty : DistType} {m n k : Nat} (h0 : 0 < min m (n - 1)) (hk : 0 < k) {ps : List (Part α)}
    (h : partCreate α m n ty k = .ok ps) : ps.flatMap Part.cells = loopPairs (min m (n - 1)) n := by
  rw [partCreate_eq α ty h0 hk] at h
  injection h with h
  rw [← h, flatMap_parts, pstart_min hk, (loopPairs_eq_walk (by omega)).1]

end Satyr.Distances
