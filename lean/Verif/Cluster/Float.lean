import Verif.Rounding
import Verif.Cluster.Props
/-!
# Clustering with `float` distances (C59)
-/
namespace Satyr.Cluster
open Satyr.Distances

/-- Arithmetic on `float`s: the average of lib/cluster.c:191 rounds after every operation; the sizes are converted to `float`. -/
def floatArith (R : Rounding 24) : Arith Rat where
  zero := 0
  gt a b := decide (a > b)
  le a b := decide (a ≤ b)
  avg a p b q := R.rnd (R.rnd (R.rnd (a * R.rnd p) + R.rnd (b * R.rnd q)) / R.rnd ((p + q : Nat) : Rat))

theorem levels_mem {α : Type} {s s' : St α} {A : Arith α} {m n k : Nat} {D0 D : Nat → Nat → α} {c1 c2 : Nat} {o1 o2 : List Nat}
    {g1 g2 : List (Option α)} (hM : Merged A m n D0 D s s' c1 c2 o1 o2 g1 g2) (hi : Inv m n k s.clusters s.levels) (S : α → Prop)
    (hD : S (D c1 c2)) (hl : ∀ i < n, ∀ o ∈ (s.clusters i).tail, ∀ v, s.levels o = some v → S v) :
    ∀ i < n, ∀ o ∈ (s'.clusters i).tail, ∀ v, s'.levels o = some v → S v := by
  intro i hin o ho v hv
  have hc1 : c1 < c2 := hM.cell.1
  have hc3 : c2 < n := hM.cell.2.2
  rw [hM.clusters] at ho
  unfold upd at ho
  split at ho
  · simp at ho
  · next h2 =>
    split at ho
    · -- the merged cluster
      have hmem : some v ∈ (o1 ++ o2).tail.map s'.levels := by
        rw [← hv]
        exact List.mem_map_of_mem ho
      rw [hM.gaps] at hmem
      have hg : ∀ (c : Nat) (hc : c < n) (o' : List Nat) (g : List (Option α)),
          ((o' = s.clusters c ∧ g = (s.clusters c).tail.map s.levels) ∨
            (o' = (s.clusters c).reverse ∧ g = ((s.clusters c).tail.map s.levels).reverse)) → some v ∈ g → S v := by
        intro c hc o' g hg hm
        have : some v ∈ (s.clusters c).tail.map s.levels := by
          rcases hg with ⟨-, rfl⟩ | ⟨-, rfl⟩
          · exact hm
          · exact List.mem_reverse.1 hm
        obtain ⟨o2, ho2, e⟩ := List.mem_map.1 this
        exact hl c hc o2 ho2 v e
      rcases List.mem_append.1 hmem with h | h
      · exact hg c1 (by omega) o1 g1 hM.left h
      · rcases List.mem_cons.1 h with h | h
        · injection h with h
          rw [h]
          exact hD
        · exact hg c2 hc3 o2 g2 hM.right h
    · next h1 =>
      have hoi := List.mem_of_mem_tail ho
      rw [hM.other o (fun h => h1 (hi.disj i hin c1 (by omega) o hoi h)) (fun h => h2 (hi.disj i hin c2 hc3 o hoi h))] at hv
      exact hl i hin o ho v hv

/-- Any arithmetic that keeps averages in a set keeps the merge levels in it. -/
theorem levels_in {α : Type} (A : Arith α) {d : Matrix α} {m n : Nat} {D : Nat → Nat → α} (h : Filled A.zero d m n D) (S : α → Prop)
    (hD : ∀ i j, S (D i j)) (hA : ∀ a b p q, S a → S b → p ≤ d.n → q ≤ d.n → 0 < p → 0 < q → S (A.avg a p b q)) :
    ∃ r, clusterObjects A d = .ok r ∧ r.levels.length + 1 = r.order.length ∧ ∀ v ∈ r.levels, S v := by
  obtain ⟨r, D', s, e, hperm, hlen, ho, hl, ⟨-, hp⟩, hi⟩ := cluster_result A h
    (fun D' s => (∀ i j, S (D' i j)) ∧ ∀ i < d.n, ∀ o ∈ (s.clusters i).tail, ∀ v, s.levels o = some v → S v)
    ⟨hD, by intro i _ o ho; simp at ho⟩
    (by
      intro k D' s s' c1 c2 o1 o2 g1 g2 hi ⟨h1, h2⟩ hM
      refine ⟨?_, levels_mem hM hi S (h1 _ _) h2⟩
      have hc1 : c1 < c2 := hM.cell.1
      have hc3 : c2 < d.n := hM.cell.2.2
      have hsz : ∀ c < d.n, (s.clusters c).length ≤ d.n := by
        intro c hc
        have := List.Subperm.length_le (List.subperm_of_subset (hi.nodup c hc) (l₂ := List.range d.n)
          (fun x hx => List.mem_range.2 (hi.bound c hc x hx)))
        simpa using this
      intro i j
      unfold newD
      split
      · exact hA _ _ _ _ (h1 _ _) (h1 _ _) (hsz c1 (by omega)) (hsz c2 hc3) (List.length_pos_iff.2 hM.act1) (List.length_pos_iff.2 hM.act2)
      · split
        · exact hA _ _ _ _ (h1 _ _) (h1 _ _) (hsz c1 (by omega)) (hsz c2 hc3) (List.length_pos_iff.2 hM.act1) (List.length_pos_iff.2 hM.act2)
        · exact h1 _ _)
  refine ⟨r, e, hlen, ?_⟩
  have hn : 0 < d.n := by have := h.holds.2.2; omega
  intro v hv
  have : some v ∈ r.order.tail.map s.levels := by rw [hl]; exact List.mem_map_of_mem hv
  obtain ⟨o, hom, he⟩ := List.mem_map.1 this
  rw [ho] at hom
  exact hp 0 hn o hom v he

/-- **C59.** With `float` arithmetic, whatever the rounding mode: clustering up to 2^23 objects whose distances are in [0, 1] gives merge
levels in [0, 1]. -/
theorem C59_float_range (R : Rounding 24) {d : Matrix Rat} {m n : Nat} {D : Nat → Nat → Rat} (h : Filled 0 d m n D)
    (hn : d.n ≤ 2 ^ 23) (hD : ∀ i j, 0 ≤ D i j ∧ D i j ≤ 1) :
    ∃ r, clusterObjects (floatArith R) d = .ok r ∧ r.levels.length + 1 = r.order.length ∧ ∀ v ∈ r.levels, 0 ≤ v ∧ v ≤ 1 := by
  apply levels_in (floatArith R) h (fun v => 0 ≤ v ∧ v ≤ 1) hD
  intro a b p q ⟨a0, a1⟩ ⟨b0, b1⟩ hp hq p0 q0
  have hp' : (0 : Rat) < p := by exact_mod_cast p0
  have hq' : (0 : Rat) < q := by exact_mod_cast q0
  simp only [floatArith]
  rw [R.keeps_nat p (by omega), R.keeps_nat q (by omega), R.keeps_nat (p + q) (by omega)]
  have x1 : R.rnd (a * p) ≤ p := R.le_nat (by omega) (by nlinarith)
  have x0 : 0 ≤ R.rnd (a * p) := R.nonneg (by positivity)
  have y1 : R.rnd (b * q) ≤ q := R.le_nat (by omega) (by nlinarith)
  have y0 : 0 ≤ R.rnd (b * q) := R.nonneg (by positivity)
  have z1 : R.rnd (R.rnd (a * p) + R.rnd (b * q)) ≤ (p + q : Nat) := R.le_nat (by omega) (by push_cast; linarith)
  exact R.div_range (R.nonneg (by linarith)) z1

/-- Four objects with the distance `x` between any two. -/
def equidistant (x : Rat) : Out (Matrix Rat) := do
  let d ← new Rat 3 4
  runSets d [(0, 1, x), (0, 2, x), (0, 3, x), (1, 2, x), (1, 3, x), (2, 3, x)]

/-- **C59, finding.** Because of rounding, levels can decrease towards the root, and cutting below every distance may nevertheless join
objects: four objects with distances 5/7 (as a `float`), rounding to nearest. -/
theorem C59_not_float_monotone : ∃ x l d, float32.rnd (5 / 7) = x ∧ l < x ∧ equidistant x = .ok d ∧
    clusterObjects (floatArith float32) d = .ok ⟨[0, 1, 2, 3], [x, x, l]⟩ ∧
    cut (floatArith float32).le ⟨[0, 1, 2, 3], [x, x, l]⟩ l 1 = .ok [[2, 3], [1], [0]] := by
  refine ⟨47934904 / 2 ^ 26, 47934900 / 2 ^ 26, _, ?_, ?_, rfl, ?_, ?_⟩
  · decide +kernel
  · decide +kernel
  · decide +kernel
  · decide +kernel

/-- **C59, finding.** And cutting at the common distance of all objects may leave more than one cluster: distances 7/9. -/
theorem C59_not_float_joined : ∃ x l d, float32.rnd (7 / 9) = x ∧ x < l ∧ equidistant x = .ok d ∧
    clusterObjects (floatArith float32) d = .ok ⟨[0, 1, 2, 3], [x, x, l]⟩ ∧
    cut (floatArith float32).le ⟨[0, 1, 2, 3], [x, x, l]⟩ x 1 = .ok [[3], [0, 1, 2]] := by
  refine ⟨52195784 / 2 ^ 26, 52195788 / 2 ^ 26, _, ?_, ?_, rfl, ?_, ?_⟩
  · decide +kernel
  · decide +kernel
  · decide +kernel
  · decide +kernel

end Satyr.Cluster
