import Verif.Cluster.Lemmas
import Mathlib.Algebra.Order.Field.Basic
import Mathlib.Algebra.Order.Ring.Rat
import Mathlib.Tactic.Linarith
import Mathlib.Tactic.FieldSimp
import Mathlib.Tactic.Ring
import Mathlib.Algebra.BigOperators.Group.List.Basic
/-!
# Properties C10 and C59: hierarchical clustering
-/
namespace Satyr.Cluster
open Satyr.Distances

variable {α : Type}

theorem Filled.holds {zero : α} {d : Matrix α} {m n : Nat} {D : Nat → Nat → α} (h : Filled zero d m n D) :
    Holds d d.m d.n D ∧ dup d = .ok d ∧ d.m < d.n := by
  obtain ⟨d₀, ops, h1, h2, h3⟩ := h.made
  have hdup := C01_dup h1 ops h2 h3
  obtain ⟨w, -⟩ := new_ok h1
  obtain ⟨d', e, w', -, -, -⟩ := runSets_slots w ops h2
  rw [h3] at e; injection e with e; subst e
  refine ⟨⟨w', rfl, rfl, ?_⟩, hdup, w'.mlt⟩
  intro i j hr
  have := h.known i j hr
  rw [get_eq, if_neg hr.1, if_pos hr] at this
  split at this
  · next v hv => rw [hv]; injection this with this; rw [this]
  · exact absurd this (by simp)

/-- Everything about the loop that does not depend on arithmetic; `P` is any further invariant. -/
theorem loop_spec (A : Arith α) {orig : Matrix α} {m n : Nat} {D0 : Nat → Nat → α} (h0 : Holds orig m n D0) (hmn : m < n)
    (P : (Nat → Nat → α) → St α → Prop)
    (hstep : ∀ k D s s' c1 c2 o1 o2 g1 g2, Inv m n k s.clusters s.levels → P D s →
      Merged A m n D0 D s s' c1 c2 o1 o2 g1 g2 → P (newD A s.clusters m c1 c2 D n) s')
    (r k : Nat) (hk : k + r + 1 = n) (D : Nat → Nat → α) (s : St α)
    (hd : Holds s.dist m n D) (hi : Inv m n k s.clusters s.levels) (hp : P D s) :
    ∃ s' D', mergeLoop A orig m n r s = .ok s' ∧ Inv m n (n - 1) s'.clusters s'.levels ∧ P D' s' := by
  induction r generalizing k D s with
  | zero =>
    refine ⟨s, D, rfl, ?_, hp⟩
    have : k = n - 1 := by omega
    rw [← this]; exact hi
  | succ r ih =>
    obtain ⟨s', c1, c2, o1, o2, g1, g2, e, hM⟩ := mergeOnce_spec A h0 hd hi (hi.another (by omega))
    obtain ⟨s'', D'', e', h1, h2⟩ := ih (k + 1) (by omega) _ s' hM.dist (hM.inv A hmn hi) (hstep k D s s' c1 c2 o1 o2 g1 g2 hi hp hM)
    refine ⟨s'', D'', ?_, h1, h2⟩
    unfold mergeLoop
    rw [e]; exact e'

theorem mapM_readLevel {n : Nat} {lv : Nat → Option α} (l : List Nat) (h : ∀ o ∈ l, o < n ∧ (lv o).isSome) :
    ∃ vs, l.mapM (readLevel n lv) = .ok vs ∧ l.map lv = vs.map some := by
  induction l with
  | nil => exact ⟨[], rfl, rfl⟩
  | cons o l ih =>
    obtain ⟨vs, e, h1⟩ := ih (fun x hx => h x (by simp [hx]))
    obtain ⟨ho, hs⟩ := h o (by simp)
    obtain ⟨v, hv⟩ := Option.isSome_iff_exists.1 hs
    refine ⟨v :: vs, ?_, by simp [hv, h1]⟩
    rw [List.mapM_cons, e]
    simp [readLevel, ho, hv]

/-- The result of clustering in terms of the final state. -/
theorem cluster_result (A : Arith α) {d : Matrix α} {m n : Nat} {D : Nat → Nat → α} (h : Filled A.zero d m n D)
    (P : (Nat → Nat → α) → St α → Prop)
    (hinit : P D { dist := d, clusters := fun i => [i], levels := fun _ => none })
    (hstep : ∀ k D' s s' c1 c2 o1 o2 g1 g2, Inv d.m d.n k s.clusters s.levels → P D' s →
      Merged A d.m d.n D D' s s' c1 c2 o1 o2 g1 g2 → P (newD A s.clusters d.m c1 c2 D' d.n) s') :
    ∃ r D' s, clusterObjects A d = .ok r ∧ r.order.Perm (List.range d.n) ∧ r.levels.length + 1 = r.order.length ∧
      r.order = s.clusters 0 ∧ r.order.tail.map s.levels = r.levels.map some ∧ P D' s ∧
      Inv d.m d.n (d.n - 1) s.clusters s.levels := by
  obtain ⟨h0, hdup, hmn⟩ := h.holds
  have hm : 0 < d.m := h0.wf.mpos
  obtain ⟨s, D', e, hi, hp⟩ := loop_spec A h0 hmn P hstep (d.n - 1) 0 (by omega) D
    { dist := d, clusters := fun i => [i], levels := fun _ => none } h0 (Inv.init _ _) hinit
  have honly : ∀ i, 0 < i → i < d.n → s.clusters i = [] := by
    intro i hi0 hin
    by_contra hc
    have hcnt := hi.count
    have hlen : ((List.range d.n).filter fun i => s.clusters i ≠ []).length = 1 := by omega
    obtain ⟨x, hx⟩ := List.length_eq_one_iff.1 hlen
    have h1 : 0 ∈ (List.range d.n).filter fun i => s.clusters i ≠ [] := by
      simp [hi.zero]; omega
    have h2 : i ∈ (List.range d.n).filter fun i => s.clusters i ≠ [] := by
      simp [hc, hin]
    rw [hx] at h1 h2
    simp at h1 h2; omega
  have hperm : (s.clusters 0).Perm (List.range d.n) := by
    rw [List.perm_ext_iff_of_nodup (hi.nodup 0 (by omega)) List.nodup_range]
    intro x
    rw [List.mem_range]
    constructor
    · exact hi.bound 0 (by omega) x
    · intro hx
      obtain ⟨i, hin, hxi⟩ := hi.cover x hx
      rcases Nat.eq_zero_or_pos i with rfl | hpos
      · exact hxi
      · rw [honly i hpos hin] at hxi; simp at hxi
  have hlen : (s.clusters 0).length = d.n := by simpa using hperm.length_eq
  obtain ⟨vs, e2, hvs⟩ := mapM_readLevel (n := d.n) (lv := s.levels) (s.clusters 0).tail (fun o ho =>
    ⟨hi.bound 0 (by omega) o (List.mem_of_mem_tail ho), hi.assigned 0 (by omega) o ho⟩)
  refine ⟨⟨s.clusters 0, vs⟩, D', s, ?_, hperm, ?_, rfl, hvs, hp, hi⟩
  · unfold clusterObjects
    simp only
    rw [if_neg (by omega), hdup]
    simp only [Out.bind_ok]
    rw [e]
    simp only [Out.bind_ok]
    rw [if_neg (by omega), if_neg (by omega), List.take_of_length_le (by omega), e2]
    rfl
  · have := congrArg List.length hvs
    simp at this
    have hne := List.length_pos_iff.2 hi.zero
    simp only; omega

/-- **C10.** For every filled distance matrix - whatever the values and the arithmetic on them are - clustering
succeeds: no assertion fails and no uninitialised or out-of-bounds memory is read. The order is a permutation of
the objects, and all `n - 1` merge levels have been assigned. -/
theorem C10_cluster_permutation (A : Arith α) {d : Matrix α} {m n : Nat} {D : Nat → Nat → α} (h : Filled A.zero d m n D) :
    ∃ r, clusterObjects A d = .ok r ∧ r.order.Perm (List.range n) ∧ r.levels.length + 1 = n := by
  obtain ⟨r, -, -, h1, h2, h3, -⟩ := cluster_result A h (fun _ _ => True) trivial (fun _ _ _ _ _ _ _ _ _ _ _ _ _ => trivial)
  have hn : d.n = n := by
    obtain ⟨d₀, ops, h1, h2, h3⟩ := h.made
    obtain ⟨w, -, hn, -⟩ := new_ok h1
    obtain ⟨d', e, -, -, hn', -⟩ := runSets_slots w ops h2
    rw [h3] at e; injection e with e; subst e
    omega
  refine ⟨r, h1, hn ▸ h2, ?_⟩
  have := h2.length_eq
  simp at this; omega

/-! ## C59 -/

/-- Sum of the distances between two clusters. -/
def S (D : Nat → Nat → Rat) (a b : List Nat) : Rat := (a.map fun x => (b.map fun y => D x y).sum).sum

theorem mean_eq (D a b) : mean D a b = S D a b / ((a.length : Rat) * b.length) := rfl

theorem S_append_left (D a a' b) : S D (a ++ a') b = S D a b + S D a' b := by simp [S]

theorem S_append_right (D a b b') : S D a (b ++ b') = S D a b + S D a b' := by
  induction a with
  | nil => simp [S]
  | cons x a ih => simp only [S, List.map_cons, List.sum_cons, List.map_append, List.sum_append] at ih ⊢; linarith

theorem S_perm {D a a' b b'} (ha : a.Perm a') (hb : b.Perm b') : S D a b = S D a' b' := by
  unfold S
  have : (a.map fun x => (b.map fun y => D x y).sum) = a.map fun x => (b'.map fun y => D x y).sum := by
    apply List.map_congr_left
    intro x _
    exact (hb.map _).sum_eq
  rw [this]
  exact (ha.map _).sum_eq

theorem S_comm {D} (hD : ∀ i j, D i j = D j i) (a b : List Nat) : S D a b = S D b a := by
  induction a with
  | nil =>
    induction b with
    | nil => rfl
    | cons y b ih => simp [S] at ih ⊢
  | cons x a ih =>
    have h1 : S D (x :: a) b = S D [x] b + S D a b := S_append_left D [x] a b
    have h2 : S D b (x :: a) = S D b [x] + S D b a := S_append_right D b [x] a
    have h3 : S D [x] b = S D b [x] := by
      simp [S, hD x]
    rw [h1, h2, ih, h3]

theorem mean_perm {D a a' b b'} (ha : a.Perm a') (hb : b.Perm b') : mean D a b = mean D a' b' := by
  rw [mean_eq, mean_eq, S_perm ha hb, ha.length_eq, hb.length_eq]

theorem mean_comm {D} (hD : ∀ i j, D i j = D j i) (a b : List Nat) : mean D a b = mean D b a := by
  rw [mean_eq, mean_eq, S_comm hD, mul_comm]

theorem mean_merge {D} {x a b : List Nat} (hx : x ≠ []) (ha : a ≠ []) (hb : b ≠ []) :
    mean D x (a ++ b) = (mean D x a * a.length + mean D x b * b.length) / ((a.length + b.length : Nat) : Rat) := by
  have h1 : (x.length : Rat) ≠ 0 := by have := List.length_pos_iff.2 hx; exact_mod_cast (by omega : x.length ≠ 0)
  have h2 : (a.length : Rat) ≠ 0 := by have := List.length_pos_iff.2 ha; exact_mod_cast (by omega : a.length ≠ 0)
  have h3 : (b.length : Rat) ≠ 0 := by have := List.length_pos_iff.2 hb; exact_mod_cast (by omega : b.length ≠ 0)
  have h4 : ((a.length : Rat) + b.length) ≠ 0 := by
    have := List.length_pos_iff.2 ha; exact_mod_cast (by omega : a.length + b.length ≠ 0)
  simp only [mean_eq, S_append_right, List.length_append, Nat.cast_add]
  field_simp

theorem Tree.ne_nil {D a l} (h : Tree D a l) : a ≠ [] := by
  induction h with
  | single => simp
  | merge _ _ _ ih _ => simp [ih]

theorem Tree.length {D a l} (h : Tree D a l) : l.length + 1 = a.length := by
  induction h with
  | single => simp
  | merge _ _ _ ih1 ih2 => simp; omega

theorem Tree.reverse {D} (hD : ∀ i j, D i j = D j i) {a l} (h : Tree D a l) : Tree D a.reverse l.reverse := by
  induction h with
  | single o => exact Tree.single o
  | @merge a b la lb h1 h2 hle ih1 ih2 =>
    have e : mean D b.reverse a.reverse = mean D a b := by
      rw [mean_comm hD]; exact mean_perm (List.reverse_perm a) (List.reverse_perm b)
    have := Tree.merge ih2 ih1 (by
      intro l hl
      rw [e]
      apply hle
      simp at hl ⊢
      tauto)
    rw [e] at this
    simpa using this

theorem runs_reverse {le : α → α → Bool} {level : α} (k : Nat) : ∀ {xs : List Nat} {gs : List α}, gs.length = k →
    gs.length + 1 = xs.length → runs le level xs.reverse gs.reverse = ((runs le level xs gs).map List.reverse).reverse := by
  induction k using Nat.strong_induction_on with
  | _ k ih =>
    intro xs gs hk hl
    have hxs : xs ≠ [] := by rintro rfl; simp at hl
    by_cases hall : ∀ g ∈ gs, le g level = true
    · rw [runs_joined hxs hl hall, runs_joined (by simpa using hxs) (by simpa using hl) (by simpa using hall)]
      simp
    · have hex : ∃ g ∈ gs, le g level = false := by
        by_contra hc
        apply hall
        intro g hg
        by_contra hb
        exact hc ⟨g, hg, by simpa using hb⟩
      obtain ⟨g, hg, hgl⟩ := hex
      obtain ⟨gx, gy, rfl⟩ := List.append_of_mem hg
      simp only [List.length_append, List.length_cons] at hl hk
      have hsplit : xs = xs.take (gx.length + 1) ++ xs.drop (gx.length + 1) := (List.take_append_drop _ _).symm
      have l1 : (xs.take (gx.length + 1)).length = gx.length + 1 := by simp; omega
      have l2 : (xs.drop (gx.length + 1)).length = gy.length + 1 := by simp; omega
      generalize xs.take (gx.length + 1) = x1 at *
      generalize xs.drop (gx.length + 1) = x2 at *
      subst hsplit
      have n1 : x1 ≠ [] := by rintro rfl; simp at l1
      have n2 : x2 ≠ [] := by rintro rfl; simp at l2
      rw [runs_append l1.symm n2 hgl]
      have : (gx ++ g :: gy).reverse = gy.reverse ++ g :: gx.reverse := by simp
      rw [this, List.reverse_append, runs_append (by simp [l2]) (by simpa using n1) hgl]
      rw [ih gx.length (by omega) rfl l1.symm, ih gy.length (by omega) rfl l2.symm]
      simp

/-- The semantic invariant of the main loop: `G i` are the merge levels inside cluster `i`. -/
structure Good (D0 : Nat → Nat → Rat) (n : Nat) (D : Nat → Nat → Rat) (cl : Nat → List Nat) (lv : Nat → Option Rat)
    (G : Nat → List Rat) : Prop where
  gaps : ∀ i < n, (cl i).tail.map lv = (G i).map some
  mean : ∀ i < n, ∀ j < n, i ≠ j → cl i ≠ [] → cl j ≠ [] → D i j = mean D0 (cl i) (cl j)
  tree : ∀ i < n, cl i ≠ [] → Tree D0 (cl i) (G i)
  low : ∀ i < n, ∀ g ∈ G i, ∀ a < n, ∀ b < n, a ≠ b → cl a ≠ [] → cl b ≠ [] → g ≤ Cluster.mean D0 (cl a) (cl b)
  sep : ∀ L, ∀ i < n, ∀ g ∈ G i, L < g → ∀ a < n, ∀ b < n, ∀ r ∈ runs ratArith.le L (cl a) (G a),
    ∀ r' ∈ runs ratArith.le L (cl b) (G b), (∀ x ∈ r, x ∉ r') → L < Cluster.mean D0 r r'

theorem map_some_inj {l l' : List α} (h : l.map some = l'.map some) : l = l' :=
  List.map_injective_iff.2 (fun _ _ h => Option.some.inj h) h

theorem Good.init (D0 : Nat → Nat → Rat) (n : Nat) : Good D0 n D0 (fun i => [i]) (fun _ => none) (fun _ => []) := by
  refine ⟨by simp, ?_, fun i _ _ => Tree.single i, by simp, by simp⟩
  intro i _ j _ _ _ _
  simp [Cluster.mean]

/-- What the left or right part of a merge looks like. -/
structure Piece (D0 : Nat → Nat → Rat) (c : List Nat) (gc : List Rat) (o : List Nat) (h : List Rat) : Prop where
  tree : Tree D0 o h
  perm : o.Perm c
  levels : ∀ g, g ∈ h ↔ g ∈ gc
  runs : ∀ L, ∀ r ∈ runs ratArith.le L o h, ∃ r' ∈ Cluster.runs ratArith.le L c gc, r.Perm r'

theorem piece {D0} (hD : ∀ i j, D0 i j = D0 j i) {c : List Nat} {gc : List Rat} {o : List Nat} {g : List (Option Rat)}
    (ht : Tree D0 c gc) (h : (o = c ∧ g = gc.map some) ∨ (o = c.reverse ∧ g = (gc.map some).reverse)) :
    ∃ h, g = h.map some ∧ Piece D0 c gc o h := by
  rcases h with ⟨rfl, rfl⟩ | ⟨rfl, rfl⟩
  · exact ⟨gc, rfl, ht, List.Perm.refl _, fun _ => Iff.rfl, fun L r hr => ⟨r, hr, List.Perm.refl _⟩⟩
  · refine ⟨gc.reverse, by simp, ht.reverse hD, List.reverse_perm _, by simp, ?_⟩
    intro L r hr
    rw [runs_reverse _ rfl ht.length] at hr
    simp only [List.mem_reverse, List.mem_map] at hr
    obtain ⟨r', h1, rfl⟩ := hr
    exact ⟨r', h1, List.reverse_perm _⟩

theorem Good.step {D0} (hD : ∀ i j, D0 i j = D0 j i) {m n k : Nat} (hmn : m + 1 = n) {D : Nat → Nat → Rat} {s s' : St Rat}
    {c1 c2 o1 o2 g1 g2} (hi : Inv m n k s.clusters s.levels) {G : Nat → List Rat}
    (hg : Good D0 n D s.clusters s.levels G) (hM : Merged ratArith m n D0 D s s' c1 c2 o1 o2 g1 g2) :
    ∃ G', Good D0 n (newD ratArith s.clusters m c1 c2 D n) s'.clusters s'.levels G' := by
  have hc1 : c1 < c2 := hM.cell.1
  have hc2 : c1 < m := hM.cell.2.1
  have hc3 : c2 < n := hM.cell.2.2
  have hc4 : c1 < n := by omega
  have t1 := hg.tree c1 hc4 hM.act1
  have t2 := hg.tree c2 hc3 hM.act2
  obtain ⟨h1, rfl, p1⟩ := piece hD t1 (by rw [← hg.gaps c1 hc4]; exact hM.left)
  obtain ⟨h2, rfl, p2⟩ := piece hD t2 (by rw [← hg.gaps c2 hc3]; exact hM.right)
  have hv : D c1 c2 = Cluster.mean D0 (s.clusters c1) (s.clusters c2) := hg.mean c1 hc4 c2 hc3 (by omega) hM.act1 hM.act2
  have hv' : Cluster.mean D0 o1 o2 = D c1 c2 := by rw [hv]; exact mean_perm p1.perm p2.perm
  generalize D c1 c2 = v at hv hv'
  have hmin : ∀ a < n, ∀ b < n, a ≠ b → s.clusters a ≠ [] → s.clusters b ≠ [] → v ≤ Cluster.mean D0 (s.clusters a) (s.clusters b) := by
    have := hM.min (by simp [ratArith]) (by
      intro a b c h1 h2
      simp only [ratArith, decide_eq_true_eq, decide_eq_false_iff_not, not_lt, gt_iff_lt] at *
      linarith)
    have key : ∀ a < n, ∀ b < n, a < b → s.clusters a ≠ [] → s.clusters b ≠ [] → v ≤ Cluster.mean D0 (s.clusters a) (s.clusters b) := by
      intro a ha b hb hab na nb
      have h := this a b ⟨hab, by simp only; omega, hb⟩ na nb
      rw [hg.mean c1 hc4 c2 hc3 (by omega) hM.act1 hM.act2, ← hv, hg.mean a ha b hb (by omega) na nb] at h
      simpa [ratArith] using h
    intro a ha b hb hab na nb
    rcases Nat.lt_or_ge a b with h | h
    · exact key a ha b hb h na nb
    · rw [mean_comm hD]; exact key b hb a ha (by omega) nb na
  have hcl : ∀ i, s'.clusters i = if i = c2 then [] else if i = c1 then o1 ++ o2 else s.clusters i := by
    intro i; rw [hM.clusters]; rfl
  -- the new clusters
  have hoo : (o1 ++ o2).Perm (s.clusters c1 ++ s.clusters c2) := p1.perm.append p2.perm
  have hmean1 : ∀ i < n, i ≠ c1 → i ≠ c2 → s.clusters i ≠ [] →
      Cluster.mean D0 (s.clusters i) (o1 ++ o2) =
        ratArith.avg (D i c1) (s.clusters c1).length (D i c2) (s.clusters c2).length := by
    intro i hin n1 n2 hne
    rw [mean_perm (List.Perm.refl _) hoo, mean_merge hne hM.act1 hM.act2,
      hg.mean i hin c1 hc4 n1 hne hM.act1, hg.mean i hin c2 hc3 n2 hne hM.act2]
    rfl
  have hge : ∀ i < n, i ≠ c1 → i ≠ c2 → s.clusters i ≠ [] → v ≤ Cluster.mean D0 (s.clusters i) (o1 ++ o2) := by
    intro i hin n1 n2 hne
    rw [mean_perm (List.Perm.refl _) hoo, mean_merge hne hM.act1 hM.act2]
    have a1 := hmin i hin c1 hc4 n1 hne hM.act1
    have a2 := hmin i hin c2 hc3 n2 hne hM.act2
    have b1 : (0 : Rat) < (s.clusters c1).length := by exact_mod_cast List.length_pos_iff.2 hM.act1
    have b2 : (0 : Rat) < (s.clusters c2).length := by exact_mod_cast List.length_pos_iff.2 hM.act2
    rw [Nat.cast_add, le_div_iff₀ (by linarith)]
    nlinarith
  have hvlow : ∀ i < n, ∀ g ∈ G i, g ≤ v := by
    intro i hin g hgi
    rw [hv]; exact hg.low i hin g hgi c1 hc4 c2 hc3 (by omega) hM.act1 hM.act2
  refine ⟨fun i => if i = c2 then [] else if i = c1 then h1 ++ v :: h2 else G i, ?_, ?_, ?_, ?_, ?_⟩
  · intro i hin
    rw [hcl]
    split
    · rfl
    · split
      · have e1 : D c1 c2 = v := by
          rw [hg.mean c1 hc4 c2 hc3 (by omega) hM.act1 hM.act2, hv]
        rw [hM.gaps, e1]; simp
      · next q2 q1 =>
        rw [← hg.gaps i hin]
        apply List.map_congr_left
        intro o ho
        have ho := List.mem_of_mem_tail ho
        exact hM.other o (fun hc => q1 (hi.disj i hin c1 hc4 o ho hc)) (fun hc => q2 (hi.disj i hin c2 hc3 o ho hc))
  · intro i hin j hjn hij hi1 hj1
    rw [hcl] at hi1 hj1
    have q1 : i ≠ c2 := by rintro rfl; simp at hi1
    have q2 : j ≠ c2 := by rintro rfl; simp at hj1
    rw [if_neg q1] at hi1
    rw [if_neg q2] at hj1
    rw [hcl, hcl, if_neg q1, if_neg q2]
    unfold newD
    by_cases r1 : j = c1
    · subst r1
      rw [if_neg hij] at hi1 ⊢
      rw [if_pos rfl, if_pos ⟨rfl, ⟨hi1, hij, q1, by omega⟩, hin⟩, hmean1 i hin hij q1 hi1]
    · rw [if_neg r1] at hj1 ⊢
      by_cases r2 : i = c1
      · subst r2
        rw [if_pos rfl, if_neg (by rintro ⟨a, -⟩; exact r1 a), if_pos ⟨rfl, ⟨hj1, r1, q2, by omega⟩, hjn⟩, mean_comm hD,
          hmean1 j hjn r1 q2 hj1]
      · rw [if_neg r2] at hi1 ⊢
        rw [if_neg (by rintro ⟨a, -⟩; exact r1 a), if_neg (by rintro ⟨a, -⟩; exact r2 a)]
        exact hg.mean i hin j hjn hij hi1 hj1
  · intro i hin hne
    rw [hcl] at hne ⊢
    split
    · next q => simp [q] at hne
    · split
      · have := Tree.merge p1.tree p2.tree (by
          intro l hl
          rw [hv']
          rcases List.mem_append.1 hl with hl | hl
          · exact hvlow c1 hc4 l ((p1.levels l).1 hl)
          · exact hvlow c2 hc3 l ((p2.levels l).1 hl))
        rwa [hv'] at this
      · next q1 q2 => rw [if_neg q1, if_neg q2] at hne; exact hg.tree i hin hne
  · -- low
    have hnew : ∀ a < n, ∀ b < n, a ≠ b → s'.clusters a ≠ [] → s'.clusters b ≠ [] → v ≤ Cluster.mean D0 (s'.clusters a) (s'.clusters b) := by
      intro a ha b hb hab na nb
      rw [hcl] at na nb
      have q1 : a ≠ c2 := by rintro rfl; simp at na
      have q2 : b ≠ c2 := by rintro rfl; simp at nb
      rw [if_neg q1] at na
      rw [if_neg q2] at nb
      rw [hcl, hcl, if_neg q1, if_neg q2]
      by_cases r1 : b = c1
      · subst r1
        rw [if_neg hab] at na ⊢
        rw [if_pos rfl]; exact hge a ha hab q1 na
      · rw [if_neg r1] at nb ⊢
        by_cases r2 : a = c1
        · rw [if_pos r2, mean_comm hD]; exact hge b hb r1 q2 nb
        · rw [if_neg r2] at na ⊢
          exact hmin a ha b hb hab na nb
    intro i hin g hgi a ha b hb hab na nb
    have hgv : g ≤ v := by
      split at hgi
      · simp at hgi
      · split at hgi
        · rcases List.mem_append.1 hgi with h | h
          · exact hvlow c1 hc4 g ((p1.levels g).1 h)
          · rcases List.mem_cons.1 h with h | h
            · exact le_of_eq h
            · exact hvlow c2 hc3 g ((p2.levels g).1 h)
        · exact hvlow i hin g hgi
    exact le_trans hgv (hnew a ha b hb hab na nb)
  · -- sep
    intro L i hin g hgi hLg a ha b hb r hr r' hr' hdis
    have hLv : L < v := by
      split at hgi
      · simp at hgi
      · split at hgi
        · rcases List.mem_append.1 hgi with h | h
          · exact lt_of_lt_of_le hLg (hvlow c1 hc4 g ((p1.levels g).1 h))
          · rcases List.mem_cons.1 h with h | h
            · rw [← h]; exact hLg
            · exact lt_of_lt_of_le hLg (hvlow c2 hc3 g ((p2.levels g).1 h))
        · exact lt_of_lt_of_le hLg (hvlow i hin g hgi)
    -- every new run is an old run up to order
    have hold : ∀ a < n, ∀ r ∈ runs ratArith.le L (s'.clusters a) (if a = c2 then [] else if a = c1 then h1 ++ v :: h2 else G a),
        ∃ a' < n, ∃ q ∈ runs ratArith.le L (s.clusters a') (G a'), r.Perm q := by
      intro a ha r hr
      rw [hcl] at hr
      split at hr
      · simp [runs] at hr
      · split at hr
        · rw [runs_append (p1.tree.length) p2.tree.ne_nil (by simpa [ratArith] using hLv)] at hr
          rcases List.mem_append.1 hr with hr | hr
          · obtain ⟨q, hq, hp⟩ := p1.runs L r hr
            exact ⟨c1, hc4, q, hq, hp⟩
          · obtain ⟨q, hq, hp⟩ := p2.runs L r hr
            exact ⟨c2, hc3, q, hq, hp⟩
        · exact ⟨a, ha, r, hr, List.Perm.refl _⟩
    obtain ⟨a', ha', q, hq, hpq⟩ := hold a ha r hr
    obtain ⟨b', hb', q', hq', hpq'⟩ := hold b hb r' hr'
    rw [mean_perm hpq hpq']
    have hdis' : ∀ x ∈ q, x ∉ q' := fun x h1 h2 => hdis x (hpq.mem_iff.2 h1) (hpq'.mem_iff.2 h2)
    by_cases hfro : ∃ i < n, ∃ g ∈ G i, L < g
    · obtain ⟨i, hin, g, hgi, hlt⟩ := hfro
      exact hg.sep L i hin g hgi hlt a' ha' b' hb' q hq q' hq' hdis'
    · have hjoin : ∀ i < n, ∀ g ∈ G i, ratArith.le g L = true := by
        intro i hin g hgi
        simp only [ratArith, decide_eq_true_eq]
        by_contra hc
        exact hfro ⟨i, hin, g, hgi, not_le.1 hc⟩
      have hone : ∀ i < n, ∀ q ∈ runs ratArith.le L (s.clusters i) (G i), q = s.clusters i ∧ s.clusters i ≠ [] := by
        intro i hin q hq
        have hne : s.clusters i ≠ [] := by
          intro hc; rw [hc] at hq; simp [runs] at hq
        rw [runs_joined hne (hg.tree i hin hne).length (hjoin i hin)] at hq
        exact ⟨by simpa using hq, hne⟩
      obtain ⟨e1, n1⟩ := hone a' ha' q hq
      obtain ⟨e2, n2⟩ := hone b' hb' q' hq'
      have hab : a' ≠ b' := by
        rintro rfl
        rw [e1, e2] at hdis'
        obtain ⟨x, hx⟩ := List.exists_mem_of_ne_nil _ n1
        exact hdis' x hx hx
      rw [e1, e2]
      exact lt_of_lt_of_le hLv (hmin a' ha' b' hb' hab n1 n2)

/-- **C59.** Average linkage on a complete matrix of exact distances: the dendrogram is a hierarchy in which every
merge level is the mean distance between the two clusters it joins, levels never decrease towards the root, and
cutting at any level leaves clusters whose mean distances from each other are above that level. -/
theorem C59_average_linkage {d : Matrix Rat} {m n : Nat} {D : Nat → Nat → Rat} (h : Filled ratArith.zero d m n D)
    (hD : ∀ i j, D i j = D j i) (hmn : n ≤ m + 1) :
    ∃ r, clusterObjects ratArith d = .ok r ∧ Tree D r.order r.levels ∧
      ∀ L minSize cs, cut ratArith.le r L minSize = .ok cs →
        ∀ x ∈ cs, ∀ y ∈ cs, x ≠ y → L < mean D x y := by
  have hshape : d.n = n ∧ d.m + 1 = d.n := by
    obtain ⟨d₀, ops, h1, h2, h3⟩ := h.made
    obtain ⟨w, hm, hn, -⟩ := new_ok h1
    obtain ⟨d', e, w', hm', hn', -⟩ := runSets_slots w ops h2
    rw [h3] at e; injection e with e; subst e
    have := w'.mlt
    omega
  obtain ⟨r, D', s, e, hperm, hlen, ho, hl, ⟨G, hg⟩, hi⟩ := cluster_result ratArith h
    (fun D' s => ∃ G, Good D d.n D' s.clusters s.levels G) ⟨_, Good.init D d.n⟩
    (fun k D' s s' c1 c2 o1 o2 g1 g2 hi ⟨G, hg⟩ hM => Good.step hD hshape.2 hi hg hM)
  have hn0 : 0 < d.n := by omega
  have hlv : r.levels = G 0 := by
    have := hg.gaps 0 hn0
    rw [← ho, hl] at this
    exact map_some_inj this
  refine ⟨r, e, ?_, ?_⟩
  · rw [hlv, ho]; exact hg.tree 0 hn0 hi.zero
  · intro L minSize cs hcut x hx y hy hxy
    have w : r.WF := ⟨by rw [ho]; exact hi.zero, hlen⟩
    have hnd : r.order.Nodup := hperm.nodup_iff.2 List.nodup_range
    have hmem : ∀ z ∈ cs, z ∈ runs ratArith.le L r.order r.levels := by
      rw [cut_eq_runs w] at hcut
      injection hcut with hcut
      intro z hz
      rw [← hcut] at hz
      simp only [List.mem_reverse, List.mem_filter] at hz
      exact hz.1
    have hdisj : ∀ z ∈ x, z ∉ y := by
      have hfl : (runs ratArith.le L r.order r.levels).flatten = r.order := runs_flatten hlen
      rw [← hfl, List.nodup_flatten] at hnd
      have hpw := hnd.2
      intro z hz hz'
      have hxr := hmem x hx
      have hyr := hmem y hy
      have hsymm : Std.Symm (List.Disjoint (α := Nat)) := ⟨fun _ _ h => h.symm⟩
      have := hpw.forall hxr hyr hxy
      exact this hz hz'
    by_cases hsome : ∃ g ∈ r.levels, L < g
    · obtain ⟨g, hgm, hlt⟩ := hsome
      rw [hlv] at hgm
      have hx' := hmem x hx
      have hy' := hmem y hy
      rw [hlv, ho] at hx' hy'
      exact hg.sep L 0 hn0 g hgm hlt 0 hn0 0 hn0 x hx' y hy' hdisj
    · have hjoin : ∀ g ∈ r.levels, ratArith.le g L = true := by
        intro g hgm
        simp only [ratArith, decide_eq_true_eq]
        by_contra hc
        exact hsome ⟨g, hgm, not_le.1 hc⟩
      have hone := runs_joined w.1 hlen hjoin
      have hx' := hmem x hx
      have hy' := hmem y hy
      rw [hone] at hx' hy'
      simp at hx' hy'
      exact absurd (hx'.trans hy'.symm) hxy

/-- Non-vacuity of C10 and C59: a complete matrix on four objects with a tie, and its dendrogram. -/
example : ∃ d₀ d, new Rat 3 4 = .ok d₀ ∧
    runSets d₀ [(0, 1, 4), (0, 2, 1), (0, 3, 3), (1, 2, 4), (1, 3, 1), (2, 3, 2)] = .ok d ∧
    clusterObjects ratArith d = .ok ⟨[0, 2, 3, 1], [1, 13/4, 1]⟩ ∧
    cut ratArith.le ⟨[0, 2, 3, 1], [1, 13/4, 1]⟩ 2 1 = .ok [[3, 1], [0, 2]] := by
  refine ⟨_, _, rfl, rfl, ?_, ?_⟩ <;> decide +kernel

/-- Non-vacuity of `Filled` (hypothesis of C10 and C59): a matrix with 3 objects filled by three `set` calls. -/
example : ∃ d, Filled ratArith.zero d 2 3 (fun i j => (i : Rat) + j) ∧ ∀ i j : Nat, (i : Rat) + j = (j : Rat) + i := by
  refine ⟨⟨2, 3, [some 1, some 2, none, some 3]⟩,
    ⟨⟨⟨2, 3, [none, none, none, none]⟩, [(0, 1, 1), (2, 0, 2), (1, 2, 3)], by decide +kernel, by decide, by decide +kernel⟩, ?_⟩,
    fun i j => add_comm _ _⟩
  intro i j hr
  have h1 : max i j < 3 := hr.2.2
  have hi : i < 3 := by omega
  have hj : j < 3 := by omega
  have hne := hr.1
  have : (i = 0 ∨ i = 1 ∨ i = 2) ∧ (j = 0 ∨ j = 1 ∨ j = 2) := by omega
  obtain ⟨rfl | rfl | rfl, rfl | rfl | rfl⟩ := this <;> first | exact absurd rfl hne | decide +kernel

end Satyr.Cluster
