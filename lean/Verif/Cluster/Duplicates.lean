import Verif.Cluster.Relabel
import Mathlib.Data.List.Nodup
import Mathlib.Data.List.Perm.Subperm
/-!
# Identical objects fall into one cluster (C143)
-/
namespace Satyr.Cluster
open Satyr.Distances
variable {α : Type}

/-! ## Specification -/

/-- The objects are the same, or their distance is `z`. -/
def Alike (D : Nat → Nat → α) (z : α) (i j : Nat) : Prop := i = j ∨ D i j = z

/-- Distances of `n` objects which are either `z` or at least `δ`, and objects like the same object are alike. -/
structure Classes [LE α] (D : Nat → Nat → α) (z δ : α) (n : Nat) : Prop where
  symm : ∀ i j, D i j = D j i
  trans : ∀ i j k, i < n → j < n → k < n → Alike D z i j → Alike D z j k → Alike D z i k
  far : ∀ i j, i < n → j < n → i ≠ j → D i j = z ∨ δ ≤ D i j

/-- Means of the distance `z` are `z`, and means of distances of at least `δ` are at least `δ`, for clusters of at most `n` objects. -/
structure Means [LE α] (avg : α → Nat → α → Nat → α) (z δ : α) (n : Nat) : Prop where
  zero : ∀ p q, 1 ≤ p → 1 ≤ q → p + q ≤ n → avg z p z q = z
  far : ∀ a p b q, 1 ≤ p → 1 ≤ q → p + q ≤ n → δ ≤ a → δ ≤ b → δ ≤ avg a p b q

/-! ## Invariant of the clustering -/

/-- Sequences of alike objects at levels `z`, put together at levels of at least `δ`. -/
inductive Grouped [LE α] (D : Nat → Nat → α) (z δ : α) : List Nat → List α → Prop
  | alike {x l} : (∀ o ∈ x, ∀ p ∈ x, Alike D z o p) → (∀ g ∈ l, g = z) → l.length + 1 = x.length → Grouped D z δ x l
  | apart {a la b lb g} : Grouped D z δ a la → Grouped D z δ b lb → (∀ o ∈ a, ∀ p ∈ b, δ ≤ D o p) → δ ≤ g →
      Grouped D z δ (a ++ b) (la ++ g :: lb)

theorem Grouped.len [LE α] {D : Nat → Nat → α} {z δ : α} {x l} (h : Grouped D z δ x l) : l.length + 1 = x.length := by
  induction h with
  | alike _ _ h => exact h
  | apart _ _ _ _ ih1 ih2 => simp only [List.length_append, List.length_cons]; omega

theorem Grouped.rev [LE α] {D : Nat → Nat → α} (hD : ∀ i j, D i j = D j i) {z δ : α} {x l} (h : Grouped D z δ x l) :
    Grouped D z δ x.reverse l.reverse := by
  induction h with
  | alike h1 h2 h3 =>
    refine .alike (fun o ho p hp => h1 o (by simpa using ho) p (by simpa using hp)) (fun g hg => h2 g (by simpa using hg)) (by simpa using h3)
  | apart _ _ h3 h4 ih1 ih2 =>
    rw [List.reverse_append, List.reverse_append, List.reverse_cons, List.append_assoc]
    refine .apart ih2 ih1 (fun o ho p hp => ?_) h4
    rw [hD]
    exact h3 p (by simpa using hp) o (by simpa using ho)

/-- What the levels between the positions `i < j` say about the objects there. -/
theorem Grouped.levels [LinearOrder α] {D : Nat → Nat → α} {z δ : α} (hz : z < δ) {x l} (h : Grouped D z δ x l) (hx : x.Nodup) {i j : Nat} (hij : i < j)
    {o p : Nat} (ho : x[i]? = some o) (hp : x[j]? = some p) :
    (D o p = z → ∀ k, i ≤ k → k < j → l[k]? = some z) ∧ ((∀ k, i ≤ k → k < j → ∀ g ∈ l[k]?, g < δ) → D o p = z) := by
  induction h generalizing i j with
  | @alike x l h1 h2 h3 =>
    have hj : j < x.length := (List.getElem?_eq_some_iff.1 hp).1
    constructor
    · intro _ k _ hk
      have hk' : k < l.length := by omega
      rw [List.getElem?_eq_getElem hk', h2 _ (List.getElem_mem hk')]
    · intro _
      rcases h1 o (List.mem_of_getElem? ho) p (List.mem_of_getElem? hp) with rfl | h
      · exfalso
        have hi : i < x.length := by omega
        rw [← ho] at hp
        have := (List.nodup_iff_getElem?_ne_getElem?.1 hx) i j hij hj
        exact this hp.symm
      · exact h
  | @apart a la b lb g ha hb h3 h4 ih1 ih2 =>
    have l1 := ha.len
    have l2 := hb.len
    have n1 := (List.nodup_append.1 hx).1
    have n2 := (List.nodup_append.1 hx).2.1
    by_cases ci : i < a.length
    · rw [List.getElem?_append_left ci] at ho
      by_cases cj : j < a.length
      · rw [List.getElem?_append_left cj] at hp
        obtain ⟨k1, k2⟩ := ih1 n1 hij ho hp
        constructor
        · intro e k hk1 hk2
          rw [List.getElem?_append_left (by omega)]
          exact k1 e k hk1 hk2
        · intro e
          refine k2 fun k hk1 hk2 => ?_
          have := e k hk1 hk2
          rwa [List.getElem?_append_left (by omega)] at this
      · rw [List.getElem?_append_right (by omega)] at hp
        have := h3 o (List.mem_of_getElem? ho) p (List.mem_of_getElem? hp)
        constructor
        · intro e
          rw [e] at this
          exact absurd hz (not_lt.2 this)
        · intro e
          have := e la.length (by omega) (by omega) g (by simp)
          exact absurd this (not_lt.2 h4)
    · rw [List.getElem?_append_right (by omega)] at ho hp
      obtain ⟨k1, k2⟩ := ih2 n2 (i := i - a.length) (j := j - a.length) (by omega) ho hp
      have sh : ∀ k, i ≤ k → (la ++ g :: lb)[k]? = lb[k - a.length]? := by
        intro k hk
        rw [List.getElem?_append_right (by omega), List.getElem?_cons, if_neg (by omega)]
        congr 1
        omega
      constructor
      · intro e k hk1 hk2
        rw [sh k hk1]
        exact k1 e _ (by omega) (by omega)
      · intro e
        refine k2 fun k hk1 hk2 => ?_
        have := e (k + a.length) (by omega) (by omega)
        rw [sh _ (by omega)] at this
        simpa using this

/-- All clusters have only alike objects and levels `z`. -/
def Pure (D : Nat → Nat → α) (z : α) (S : Stage α) : Prop :=
  ∀ x l, S.seqs x l → (∀ o ∈ x, ∀ p ∈ x, Alike D z o p) ∧ ∀ g ∈ l, g = z

/-- Objects of different clusters are far from each other. -/
def Closed [LE α] (D : Nat → Nat → α) (δ : α) (S : Stage α) : Prop :=
  ∀ x l y l', S.seqs x l → S.seqs y l' → Apart x y → ∀ o ∈ x, ∀ p ∈ y, δ ≤ D o p

structure Sorted [LE α] (D : Nat → Nat → α) (z δ : α) (S : Stage α) : Prop where
  grouped : ∀ x l, S.seqs x l → Grouped D z δ x l
  phase : Pure D z S ∨ Closed D δ S
  zero : ∀ x l y l', S.seqs x l → S.seqs y l' → Apart x y → (∀ o ∈ x, ∀ p ∈ y, D o p = z) → S.dist x y = z
  far : ∀ x l y l', S.seqs x l → S.seqs y l' → Apart x y → (∀ o ∈ x, ∀ p ∈ y, δ ≤ D o p) → δ ≤ S.dist x y

/-- Two clusters of alike objects are alike, or far from each other. -/
theorem Pure.two [LE α] {D : Nat → Nat → α} {z δ : α} {n : Nat} (hc : Classes D z δ n) {S : Stage α} (hS : Proper n S) (h : Pure D z S) {x l y l'}
    (hx : S.seqs x l) (hy : S.seqs y l') (ha : Apart x y) : (∀ o ∈ x, ∀ p ∈ y, D o p = z) ∨ ∀ o ∈ x, ∀ p ∈ y, δ ≤ D o p := by
  obtain ⟨u, hu⟩ := List.exists_mem_of_ne_nil _ (hS.ne x l hx)
  obtain ⟨v, hv⟩ := List.exists_mem_of_ne_nil _ (hS.ne y l' hy)
  have ne : ∀ o ∈ x, ∀ p ∈ y, o ≠ p := fun o ho p hp e => ha o ho (e ▸ hp)
  have bx := hS.bound x l hx
  have bv := hS.bound y l' hy
  have px := (h x l hx).1
  have py := (h y l' hy).1
  have key : ∀ o ∈ x, ∀ p ∈ y, ∀ o' ∈ x, ∀ p' ∈ y, D o p = z → D o' p' = z := by
    intro o ho p hp o' ho' p' hp' e
    have := hc.trans o' o p' (bx _ ho') (bx _ ho) (bv _ hp') (px _ ho' _ ho)
      (hc.trans o p p' (bx _ ho) (bv _ hp) (bv _ hp') (.inr e) (py _ hp _ hp'))
    exact this.resolve_left (ne _ ho' _ hp')
  rcases hc.far u v (bx _ hu) (bv _ hv) (ne _ hu _ hv) with e | e
  · exact .inl fun o ho p hp => key u hu v hv o ho p hp e
  · by_cases hh : ∃ o ∈ x, ∃ p ∈ y, D o p = z
    · obtain ⟨o, ho, p, hp, e'⟩ := hh
      exact .inl fun o' ho' p' hp' => key o ho p hp o' ho' p' hp' e'
    · refine .inr fun o ho p hp => (hc.far o p (bx _ ho) (bv _ hp) (ne _ ho _ hp)).resolve_left fun e' => hh ⟨o, ho, p, hp, e'⟩

theorem Proper.short {n : Nat} {S : Stage α} (hS : Proper n S) {a la b lb} (ha : S.seqs a la) (hb : S.seqs b lb) (hab : Apart a b) :
    1 ≤ a.length ∧ 1 ≤ b.length ∧ a.length + b.length ≤ n := by
  refine ⟨List.length_pos_iff.2 (hS.ne _ _ ha), List.length_pos_iff.2 (hS.ne _ _ hb), ?_⟩
  have hn : (a ++ b).Nodup := List.nodup_append.2 ⟨hS.nodup _ _ ha, hS.nodup _ _ hb, fun o ho p hp e => hab o ho (e ▸ hp)⟩
  have hsub : (a ++ b) ⊆ List.range n := by
    intro o ho
    rw [List.mem_range]
    rcases List.mem_append.1 ho with h | h
    · exact hS.bound _ _ ha o h
    · exact hS.bound _ _ hb o h
  have := (List.subperm_of_subset hn hsub).length_le
  simpa using this

theorem Greedy.sorted [LinearOrder α] {avg : α → Nat → α → Nat → α} {D : Nat → Nat → α} {z δ : α} (hz : z < δ) {n k : Nat} {S : Stage α}
    (hc : Classes D z δ n) (hm : Means avg z δ n) (h : Greedy avg D n k S) : Sorted D z δ S := by
  induction h with
  | start h1 h2 =>
    refine ⟨?_, .inl ?_, ?_, ?_⟩
    · intro x l hx
      obtain ⟨i, hi, rfl, rfl⟩ := (h1 x l).1 hx
      exact .alike (by simp [Alike]) (by simp) (by simp)
    · intro x l hx
      obtain ⟨i, hi, rfl, rfl⟩ := (h1 x l).1 hx
      exact ⟨by simp [Alike], by simp⟩
    · intro x l y l' hx hy ha hd
      obtain ⟨i, hi, rfl, rfl⟩ := (h1 x l).1 hx
      obtain ⟨j, hj, rfl, rfl⟩ := (h1 y l').1 hy
      have hij : i ≠ j := fun e => ha i (by simp) (by simp [e])
      rw [h2 i j hi hj hij]
      exact hd i (by simp) j (by simp)
    · intro x l y l' hx hy ha hd
      obtain ⟨i, hi, rfl, rfl⟩ := (h1 x l).1 hx
      obtain ⟨j, hj, rfl, rfl⟩ := (h1 y l').1 hy
      have hij : i ≠ j := fun e => ha i (by simp) (by simp [e])
      rw [h2 i j hi hj hij]
      exact hd i (by simp) j (by simp)
  | @join k S T a b la lb hS ha hb hab hnear _ hp ih =>
    have pS := hS.proper hc.symm
    have pT := pS.put ha hb hab hp
    -- either all objects of `a` and `b` are alike and the stage is pure, or different clusters are far from each other
    have key : (Pure D z S ∧ ∀ o ∈ a, ∀ p ∈ b, D o p = z) ∨ Closed D δ S := by
      rcases ih.phase with h | h
      · rcases h.two hc pS ha hb hab with h' | h'
        · exact .inl ⟨h, h'⟩
        · right
          intro x l y l' hx hy hxy
          rcases h.two hc pS hx hy hxy with h'' | h''
          · exfalso
            have e1 := ih.zero x l y l' hx hy hxy h''
            have e2 := ih.far a la b lb ha hb hab h'
            have := hnear x l y l' hx hy hxy
            rw [e1] at this
            exact absurd hz (not_lt.2 (e2.trans this))
          · exact h''
      · exact .inr h
    obtain ⟨s1, s2, s3⟩ := pS.short ha hb hab
    refine ⟨?_, ?_, ?_, ?_⟩
    · have whole : Grouped D z δ (a ++ b) (la ++ S.dist a b :: lb) := by
        rcases key with ⟨h, h'⟩ | h
        · refine .alike ?_ ?_ ?_
          · intro o ho p hp
            rcases List.mem_append.1 ho with ho | ho <;> rcases List.mem_append.1 hp with hp | hp
            · exact (h a la ha).1 o ho p hp
            · exact .inr (h' o ho p hp)
            · exact .inr (by rw [hc.symm]; exact h' p hp o ho)
            · exact (h b lb hb).1 o ho p hp
          · intro g hg
            rcases List.mem_append.1 hg with hg | hg
            · exact (h a la ha).2 g hg
            · rcases List.mem_cons.1 hg with rfl | hg
              · exact ih.zero a la b lb ha hb hab h'
              · exact (h b lb hb).2 g hg
          · have := pS.len _ _ ha
            have := pS.len _ _ hb
            simp only [List.length_append, List.length_cons]
            omega
        · have h' := h a la b lb ha hb hab
          exact .apart (ih.grouped a la ha) (ih.grouped b lb hb) h' (ih.far a la b lb ha hb hab h')
      intro x l hx
      rcases (hp.seqs x l).1 hx with ⟨rfl, rfl⟩ | ⟨rfl, rfl⟩ | ⟨hx, -, -⟩
      · exact whole
      · exact whole.rev hc.symm
      · exact ih.grouped x l hx
    · rcases key with ⟨h, h'⟩ | h
      · left
        intro x l hx
        have whole : (∀ o ∈ a ++ b, ∀ p ∈ a ++ b, Alike D z o p) ∧ ∀ g ∈ la ++ S.dist a b :: lb, g = z := by
          constructor
          · intro o ho p hp
            rcases List.mem_append.1 ho with ho | ho <;> rcases List.mem_append.1 hp with hp | hp
            · exact (h a la ha).1 o ho p hp
            · exact .inr (h' o ho p hp)
            · exact .inr (by rw [hc.symm]; exact h' p hp o ho)
            · exact (h b lb hb).1 o ho p hp
          · intro g hg
            rcases List.mem_append.1 hg with hg | hg
            · exact (h a la ha).2 g hg
            · rcases List.mem_cons.1 hg with rfl | hg
              · exact ih.zero a la b lb ha hb hab h'
              · exact (h b lb hb).2 g hg
        rcases (hp.seqs x l).1 hx with ⟨rfl, rfl⟩ | ⟨rfl, rfl⟩ | ⟨hx, -, -⟩
        · exact whole
        · exact ⟨fun o ho p hp => whole.1 o (List.mem_reverse.1 ho) p (List.mem_reverse.1 hp), fun g hg => whole.2 g (List.mem_reverse.1 hg)⟩
        · exact h x l hx
      · right
        intro x l y l' hx hy hxy o ho p hpy
        have part : ∀ x l, S.seqs x l → Apart x a → Apart x b → ∀ c, Same c (a ++ b) → ∀ o ∈ x, ∀ p ∈ c, δ ≤ D o p := by
          intro x l hx h1 h2 c hcs o ho p hp
          rcases List.mem_append.1 ((hcs.mem p).1 hp) with hp | hp
          · exact h x l a la hx ha h1 o ho p hp
          · exact h x l b lb hx hb h2 o ho p hp
        rcases hp.rev_same hx with e1 | ⟨k1, k2, k3⟩ <;> rcases hp.rev_same hy with e2 | ⟨k4, k5, k6⟩
        · exact absurd hxy ((e1.trans e2.symm).not_apart (pT.ne _ _ hx))
        · rw [hc.symm]
          exact part y l' k4 k5 k6 x e1 p hpy o ho
        · exact part x l k1 k2 k3 y e2 o ho p hpy
        · exact h x l y l' k1 k4 hxy o ho p hpy
    · intro x l y l' hx hy hxy hd
      rcases hp.rev_same hx with e1 | ⟨k1, k2, k3⟩ <;> rcases hp.rev_same hy with e2 | ⟨k4, k5, k6⟩
      · exact absurd hxy ((e1.trans e2.symm).not_apart (pT.ne _ _ hx))
      · rw [(hp.new y l' x k4 k5 k6 e1).2, ih.zero y l' a la k4 ha k5, ih.zero y l' b lb k4 hb k6]
        · exact hm.zero _ _ s1 s2 s3
        · intro o ho p hp
          rw [hc.symm]
          exact hd p ((e1.mem p).2 (by simp [hp])) o ho
        · intro o ho p hp
          rw [hc.symm]
          exact hd p ((e1.mem p).2 (by simp [hp])) o ho
      · rw [(hp.new x l y k1 k2 k3 e2).1, ih.zero x l a la k1 ha k2, ih.zero x l b lb k1 hb k3]
        · exact hm.zero _ _ s1 s2 s3
        · exact fun o ho p hp => hd o ho p ((e2.mem p).2 (by simp [hp]))
        · exact fun o ho p hp => hd o ho p ((e2.mem p).2 (by simp [hp]))
      · rw [hp.old x l y l' k1 k4 k2 k3 k5 k6]
        exact ih.zero x l y l' k1 k4 hxy hd
    · intro x l y l' hx hy hxy hd
      rcases hp.rev_same hx with e1 | ⟨k1, k2, k3⟩ <;> rcases hp.rev_same hy with e2 | ⟨k4, k5, k6⟩
      · exact absurd hxy ((e1.trans e2.symm).not_apart (pT.ne _ _ hx))
      · rw [(hp.new y l' x k4 k5 k6 e1).2]
        refine hm.far _ _ _ _ s1 s2 s3 (ih.far y l' a la k4 ha k5 ?_) (ih.far y l' b lb k4 hb k6 ?_)
        · intro o ho p hp
          rw [hc.symm]
          exact hd p ((e1.mem p).2 (by simp [hp])) o ho
        · intro o ho p hp
          rw [hc.symm]
          exact hd p ((e1.mem p).2 (by simp [hp])) o ho
      · rw [(hp.new x l y k1 k2 k3 e2).1]
        refine hm.far _ _ _ _ s1 s2 s3 (ih.far x l a la k1 ha k2 ?_) (ih.far x l b lb k1 hb k3 ?_)
        · exact fun o ho p hp => hd o ho p ((e2.mem p).2 (by simp [hp]))
        · exact fun o ho p hp => hd o ho p ((e2.mem p).2 (by simp [hp]))
      · rw [hp.old x l y l' k1 k4 k2 k3 k5 k6]
        exact ih.far x l y l' k1 k4 hxy hd

/-! ## Cutting -/

/-- Positions with only joined positions between them are in the same maximal run. -/
theorem MaxRun.reach {le : α → α → Bool} {d : Dendrogram α} {level : α} {a b : Nat} (h : MaxRun le d level a b) {i j : Nat} (hij : i < j)
    (hj : ∀ k, i ≤ k → k < j → Joined le d level k) : (a ≤ i ∧ i ≤ b) ↔ (a ≤ j ∧ j ≤ b) := by
  constructor
  · rintro ⟨h1, h2⟩
    refine ⟨by omega, ?_⟩
    by_contra hc
    exact h.right (hj b h2 (by omega))
  · rintro ⟨h1, h2⟩
    refine ⟨?_, by omega⟩
    by_contra hc
    rcases h.left with h0 | h0
    · omega
    · exact h0 (hj (a - 1) (by omega) (by omega))

theorem mem_slice {d : Dendrogram α} {a b : Nat} {o : Nat} : o ∈ slice d a b ↔ ∃ i, a ≤ i ∧ i ≤ b ∧ d.order[i]? = some o := by
  unfold slice
  rw [List.mem_iff_getElem?]
  constructor
  · rintro ⟨i, hi⟩
    rw [List.getElem?_take] at hi
    split at hi
    · rw [List.getElem?_drop] at hi
      exact ⟨a + i, by omega, by omega, hi⟩
    · simp at hi
  · rintro ⟨i, h1, h2, h3⟩
    refine ⟨i - a, ?_⟩
    rw [List.getElem?_take, if_pos (by omega), List.getElem?_drop, show a + (i - a) = i by omega]
    exact h3

/-- C143: objects whose distance is the least possible are in the same clusters, wherever the dendrogram is cut at or above this distance; and
when it is cut below all other distances, only they are. -/
theorem C143_clusters [LinearOrder α] {A : Arith α} (hA : Lawful A) {d : Matrix α} {m n : Nat} {D : Nat → Nat → α} (h : Filled A.zero d m n D)
    (hmn : n ≤ m + 1) {z δ : α} (hz : z < δ) (hc : Classes D z δ n) (hm : Means A.avg z δ n) :
    ∃ r, clusterObjects A d = .ok r ∧ r.order.Perm (List.range n) ∧ ∀ level minSize, z ≤ level →
      ∃ cs, cut (fun a b => decide (a ≤ b)) r level minSize = .ok cs ∧ ∀ c ∈ cs, ∀ i ∈ c, i < n ∧ ∀ j < n,
        (D i j = z → j ∈ c) ∧ (level < δ → j ∈ c → Alike D z i j) := by
  obtain ⟨r, S, e, hp, hl, hg, hs⟩ := cluster_greedy hA h hc.symm hmn
  have good := hg.sorted hz hc hm
  have gr := good.grouped _ _ hs
  have proper := hg.proper hc.symm
  have nd := proper.nodup _ _ hs
  have w : r.WF := ⟨proper.ne _ _ hs, hl⟩
  refine ⟨r, e, hp, fun level minSize hlev => ?_⟩
  obtain ⟨cs, ec, hcs, -, -⟩ := C11_cut (le := fun a b => decide (a ≤ b)) w level minSize
  refine ⟨cs, ec, ?_⟩
  intro c hcm i hi
  obtain ⟨a, b, hr, hsz, rfl⟩ := (hcs c).1 hcm
  obtain ⟨x, hx1, hx2, hx3⟩ := mem_slice.1 hi
  refine ⟨by simpa using hp.mem_iff.1 (List.mem_of_getElem? hx3), fun j hj => ?_⟩
  constructor
  · intro ez
    by_cases hij : i = j
    · exact hij ▸ hi
    have hjm : j ∈ r.order := hp.mem_iff.2 (by simpa using hj)
    obtain ⟨y, hy⟩ := List.mem_iff_getElem?.1 hjm
    have hxy : x ≠ y := by
      rintro rfl
      rw [hx3] at hy
      injection hy with hy
      exact hij hy
    refine mem_slice.2 ⟨y, ?_⟩
    rcases Nat.lt_or_gt_of_ne hxy with hlt | hlt
    · have := (gr.levels hz nd hlt hx3 hy).1 ez
      have := (hr.reach hlt fun k h1 h2 => ⟨z, this k h1 h2, by simpa using hlev⟩).1 ⟨hx1, hx2⟩
      exact ⟨this.1, this.2, hy⟩
    · have := (gr.levels hz nd hlt hy hx3).1 (by rw [hc.symm]; exact ez)
      have := (hr.reach hlt fun k h1 h2 => ⟨z, this k h1 h2, by simpa using hlev⟩).2 ⟨hx1, hx2⟩
      exact ⟨this.1, this.2, hy⟩
  · intro hlt' hjc
    obtain ⟨y, hy1, hy2, hy3⟩ := mem_slice.1 hjc
    have low : ∀ k, a ≤ k → k < b → ∀ g ∈ r.levels[k]?, g < δ := by
      intro k h1 h2 g hg
      obtain ⟨g', k1, k2⟩ := hr.joined k h1 h2
      rw [k1] at hg
      cases hg
      exact lt_of_le_of_lt (by simpa using k2) hlt'
    rcases Nat.lt_trichotomy x y with hlt | rfl | hlt
    · exact .inr ((gr.levels hz nd hlt hx3 hy3).2 fun k h1 h2 => low k (by omega) (by omega))
    · left
      rw [hx3] at hy3
      injection hy3
    · right
      rw [hc.symm]
      exact (gr.levels hz nd hlt hy3 hx3).2 fun k h1 h2 => low k (by omega) (by omega)

end Satyr.Cluster
