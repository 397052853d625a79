import Verif.Cluster.Float
import Mathlib.Data.Nat.Log
/-!
# C115: the order of the objects in a dendrogram
-/
namespace Satyr.Cluster
open Satyr.Distances

variable {α : Type}

/-! ## Specification -/

/-- A sequence of objects is put together from single objects by joining two sequences, each time with those of their ends next to each
other that are nearest (`Close`). -/
inductive Drawn (le : α → α → Bool) (D : Nat → Nat → α) : List Nat → Prop where
  | leaf (o : Nat) : Drawn le D [o]
  | join {a b : List Nat} : Drawn le D a → Drawn le D b → Close le D a b → Drawn le D (a ++ b)

/-- In a sequence of objects with levels between them, `x` and `y` are neighbours with the level `v` between them. -/
def Side (o : List Nat) (g : List α) (x y : Nat) (v : α) : Prop :=
  ∃ a b ga gb, o = a ++ x :: y :: b ∧ g = ga ++ v :: gb ∧ ga.length = a.length

/-! ## Joined at the nearest ends -/

theorem Drawn.ne_nil {le : α → α → Bool} {D : Nat → Nat → α} {a : List Nat} (h : Drawn le D a) : a ≠ [] := by
  induction h with
  | leaf => simp
  | join _ _ _ ih _ => simp [ih]

theorem mem_endsOf_reverse (c : List Nat) (x : Nat) : x ∈ endsOf c.reverse ↔ x ∈ endsOf c := by
  simp only [endsOf, List.head?_reverse, List.getLast?_reverse, List.mem_append]
  exact or_comm

theorem Drawn.reverse {le : α → α → Bool} {D : Nat → Nat → α} (hD : ∀ i j, D i j = D j i) {a : List Nat} (h : Drawn le D a) :
    Drawn le D a.reverse := by
  induction h with
  | leaf o => exact .leaf o
  | join _ _ hc ih1 ih2 =>
    rw [List.reverse_append]
    refine .join ih2 ih1 ?_
    intro p hp q hq x hx y hy
    rw [List.getLast?_reverse] at hp
    rw [List.head?_reverse] at hq
    rw [hD p q, hD x y]
    exact hc q hq p hp y ((mem_endsOf_reverse _ _).1 hy) x ((mem_endsOf_reverse _ _).1 hx)

/-- **C115.** On a complete matrix the order is drawn by joining sequences at their nearest ends, whatever the arithmetic is, if `<=` is
total and transitive (no NaN). -/
theorem C115_drawn (A : Arith α) (tot : ∀ a b, A.le a b = true ∨ A.le b a = true)
    (tr : ∀ a b c, A.le a b = true → A.le b c = true → A.le a c = true) {d : Matrix α} {m n : Nat} {D : Nat → Nat → α}
    (h : Filled A.zero d m n D) (hD : ∀ i j, D i j = D j i) (hmn : n ≤ m + 1) :
    ∃ r, clusterObjects A d = .ok r ∧ r.order.Perm (List.range n) ∧ Drawn A.le D r.order := by
  have hshape : d.n = n ∧ d.m + 1 = d.n := by
    obtain ⟨d₀, ops, h1, h2, h3⟩ := h.made
    obtain ⟨w, hm, hn, -⟩ := new_ok h1
    obtain ⟨d', e, w', hm', hn', -⟩ := runSets_slots w ops h2
    rw [h3] at e; injection e with e; subst e
    have := w'.mlt
    omega
  obtain ⟨r, D', s, e, hperm, hlen, ho, hl, hp, hi⟩ := cluster_result A h
    (fun _ s => ∀ i < d.n, s.clusters i ≠ [] → Drawn A.le D (s.clusters i)) (fun i _ _ => .leaf i)
    (by
      intro k D' s s' c1 c2 o1 o2 g1 g2 hi hp hM i hin hne
      have hc1 : c1 < c2 := hM.cell.1
      have hc3 : c2 < d.n := hM.cell.2.2
      rw [hM.clusters] at hne ⊢
      unfold upd at hne ⊢
      split
      · next h2 => simp [h2] at hne
      · next h2 =>
        rw [if_neg h2] at hne
        split
        · refine .join ?_ ?_ (hM.close hshape.2 tot tr)
          · have := hp c1 (by omega) hM.act1
            rcases hM.left with ⟨e, -⟩ | ⟨e, -⟩ <;> rw [e]
            · exact this
            · exact this.reverse hD
          · have := hp c2 hc3 hM.act2
            rcases hM.right with ⟨e, -⟩ | ⟨e, -⟩ <;> rw [e]
            · exact this
            · exact this.reverse hD
        · next h1 =>
          rw [if_neg h1] at hne
          exact hp i hin hne)
  refine ⟨r, e, hshape.1 ▸ hperm, ?_⟩
  rw [ho]
  exact hp 0 (by omega) hi.zero

/-! ## The nearest two objects -/

theorem Side.reverse {o : List Nat} {g : List α} {x y : Nat} {v : α} (hl : g.length + 1 = o.length) (h : Side o g x y v) :
    Side o.reverse g.reverse y x v := by
  obtain ⟨a, b, ga, gb, rfl, rfl, e⟩ := h
  refine ⟨b.reverse, a.reverse, gb.reverse, ga.reverse, by simp, by simp, ?_⟩
  simp only [List.length_append, List.length_cons, List.length_reverse] at hl ⊢
  omega

theorem Side.left {o o' : List Nat} {g g' : List α} {x y : Nat} {v : α} (h : Side o g x y v) : Side (o ++ o') (g ++ g') x y v := by
  obtain ⟨a, b, ga, gb, rfl, rfl, e⟩ := h
  exact ⟨a, b ++ o', ga, gb ++ g', by simp, by simp, e⟩

theorem Side.right {o o' : List Nat} {g g' : List α} {x y : Nat} {u v : α} (hl : g.length + 1 = o.length) (h : Side o' g' x y v) :
    Side (o ++ o') (g ++ u :: g') x y v := by
  obtain ⟨a, b, ga, gb, rfl, rfl, e⟩ := h
  exact ⟨o ++ a, b, g ++ u :: ga, gb, by simp, by simp, by simp; omega⟩

/-- **C115.** Two objects as near to each other as any two are neighbours in the order, and the level between them is their distance,
whatever the averages of distances are, if `>` is a strict order in which "neither is greater" is transitive. -/
theorem C115_nearest (A : Arith α) (irr : ∀ a, A.gt a a = false)
    (tr : ∀ a b c, A.gt a b = true → A.gt a c = false → A.gt b c = false) {d : Matrix α} {m n : Nat} {D : Nat → Nat → α}
    (h : Filled A.zero d m n D) :
    ∃ r x y v, clusterObjects A d = .ok r ∧ r.levels.length + 1 = r.order.length ∧ (Side r.order r.levels x y v ∨ Side r.order r.levels y x v) ∧
      InRange d.m d.n x y ∧ v = D x y ∧ ∀ i j, i < j → i < d.m → j < d.n → A.gt v (D i j) = false := by
  have hmn := h.holds.2.2
  let Near (x y : Nat) : Prop := Cell d.m d.n (x, y) ∧ ∀ i j, Cell d.m d.n (i, j) → A.gt (D x y) (D i j) = false
  obtain ⟨r, D', s, e, hperm, hlen, ho, hl, hp, hi⟩ := cluster_result A h
    (fun D' s => (D' = D ∧ s.clusters = fun i => [i]) ∨ ∃ x y, Near x y ∧ ∃ i < d.n,
      Side (s.clusters i) ((s.clusters i).tail.map s.levels) x y (some (D x y)) ∨
      Side (s.clusters i) ((s.clusters i).tail.map s.levels) y x (some (D x y))) (.inl ⟨rfl, rfl⟩)
    (by
      intro k D' s s' c1 c2 o1 o2 g1 g2 hi hp hM
      right
      have hc1 : c1 < c2 := hM.cell.1
      have hc2 : c1 < d.m := hM.cell.2.1
      have hc3 : c2 < d.n := hM.cell.2.2
      have hat1 : s'.clusters c1 = o1 ++ o2 := by
        rw [hM.clusters]
        simp [upd, show c1 ≠ c2 by omega]
      have lenTail : ∀ c : List Nat, c ≠ [] → (c.tail.map s.levels).length + 1 = c.length := by
        intro c hc
        have := List.length_pos_iff.2 hc
        simp; omega
      have l1 : g1.length + 1 = o1.length := by
        have := lenTail _ hM.act1
        rcases hM.left with ⟨e, e'⟩ | ⟨e, e'⟩ <;> rw [e, e'] <;> simpa using this
      rcases hp with ⟨rfl, hs⟩ | ⟨x, y, hN, i, hin, hS⟩
      · refine ⟨c1, c2, ⟨hM.cell, fun i j hij => hM.min irr tr i j hij (by simp [hs]) (by simp [hs])⟩, c1, by omega, .inl ?_⟩
        have e1 : o1 = [c1] := by rcases hM.left with ⟨e, -⟩ | ⟨e, -⟩ <;> simp [e, hs]
        have e2 : o2 = [c2] := by rcases hM.right with ⟨e, -⟩ | ⟨e, -⟩ <;> simp [e, hs]
        have f1 : g1 = [] := by rcases hM.left with ⟨-, e⟩ | ⟨-, e⟩ <;> simp [e, hs]
        rw [hat1, hM.gaps, e1, e2, f1]
        exact ⟨[], [], [], g2, rfl, rfl, rfl⟩
      · by_cases h1 : i = c1
        · subst h1
          refine ⟨x, y, hN, i, hin, ?_⟩
          rw [hat1, hM.gaps]
          rcases hM.left with ⟨e, e'⟩ | ⟨e, e'⟩
          · rw [e, e']
            exact hS.imp (Side.left) (Side.left)
          · rw [e, e']
            exact hS.symm.imp (fun h => (h.reverse (lenTail _ hM.act1)).left) (fun h => (h.reverse (lenTail _ hM.act1)).left)
        · by_cases h2 : i = c2
          · subst h2
            refine ⟨x, y, hN, c1, by omega, ?_⟩
            rw [hat1, hM.gaps]
            rcases hM.right with ⟨e, e'⟩ | ⟨e, e'⟩
            · rw [e, e']
              exact hS.imp (Side.right l1) (Side.right l1)
            · rw [e, e']
              exact hS.symm.imp (fun h => (h.reverse (lenTail _ hM.act2)).right l1) (fun h => (h.reverse (lenTail _ hM.act2)).right l1)
          · refine ⟨x, y, hN, i, hin, ?_⟩
            have e1 : s'.clusters i = s.clusters i := by
              rw [hM.clusters]
              simp [upd, h1, h2]
            have e2 : (s.clusters i).tail.map s'.levels = (s.clusters i).tail.map s.levels := by
              apply List.map_congr_left
              intro o ho
              have hoi := List.mem_of_mem_tail ho
              exact hM.other o (fun h => h1 (hi.disj i hin c1 (by omega) o hoi h)) (fun h => h2 (hi.disj i hin c2 hc3 o hoi h))
            rw [e1, e2]
            exact hS)
  have hm : 0 < d.m := h.holds.1.wf.mpos
  have only : ∀ i < d.n, s.clusters i ≠ [] → i = 0 := by
    intro i hin hne
    obtain ⟨x, hx⟩ := List.exists_mem_of_ne_nil _ hne
    have h1 : x ∈ s.clusters 0 := by
      rw [← ho]
      exact hperm.mem_iff.2 (List.mem_range.2 (hi.bound i hin x hx))
    exact hi.disj i hin 0 (by omega) x hx h1
  rcases hp with ⟨-, hs⟩ | ⟨x, y, ⟨hc, hN⟩, i, hin, hS⟩
  · have := only 1 (by omega) (by simp [hs])
    omega
  · have hi0 : i = 0 := by
      apply only i hin
      rcases hS with ⟨a, b, ga, gb, e, -⟩ | ⟨a, b, ga, gb, e, -⟩ <;> simp [e]
    subst hi0
    have conv : ∀ {x y v}, Side (s.clusters 0) ((s.clusters 0).tail.map s.levels) x y (some v) → Side r.order r.levels x y v := by
      rintro x y v ⟨a, b, ga, gb, e, e', hle⟩
      rw [← ho, hl] at e'
      obtain ⟨ga', gb', h1, h2, h3⟩ := List.map_eq_append_iff.1 e'
      obtain ⟨v', gb'', rfl, h4, h5⟩ := List.map_eq_cons_iff.1 h3
      cases h4
      refine ⟨a, b, ga', gb'', by rw [ho, e], h1, ?_⟩
      rw [← h2] at hle
      simpa using hle
    have hxy : x < y := hc.1
    have hxm : x < d.m := hc.2.1
    have hyn : y < d.n := hc.2.2
    refine ⟨r, x, y, D x y, e, hlen, hS.imp conv conv, ⟨by omega, by omega, by omega⟩, rfl, fun i j h1 h2 h3 => hN i j ⟨h1, h2, h3⟩⟩

/-- **C115** for `float` distances and any rounding mode. -/
theorem C115_float (R : Rounding 24) {d : Matrix Rat} {m n : Nat} {D : Nat → Nat → Rat} (h : Filled 0 d m n D)
    (hD : ∀ i j, D i j = D j i) (hmn : n ≤ m + 1) :
    ∃ r x y, clusterObjects (floatArith R) d = .ok r ∧ Drawn (fun a b => decide (a ≤ b)) D r.order ∧
      Side r.order r.levels x y (D x y) ∧ ∀ i j, i < n → j < n → i ≠ j → D x y ≤ D i j := by
  have tr : ∀ a b c : Rat, (floatArith R).le a b = true → (floatArith R).le b c = true → (floatArith R).le a c = true := by
    intro a b c h1 h2
    simp only [floatArith, decide_eq_true_eq] at *
    linarith
  obtain ⟨r, e, -, hd⟩ := C115_drawn (floatArith R) (by intro a b; simp only [floatArith, decide_eq_true_eq]; exact le_total a b) tr h hD hmn
  obtain ⟨r', x, y, v, e', -, hs, hr, rfl, hv⟩ := C115_nearest (floatArith R) (by simp [floatArith])
    (by
      intro a b c h1 h2
      simp only [floatArith, decide_eq_true_eq, decide_eq_false_iff_not, not_lt, gt_iff_lt] at *
      linarith) h
  rw [e] at e'
  cases e'
  have hshape : d.n = n ∧ d.m + 1 = d.n := by
    obtain ⟨d₀, ops, h1, h2, h3⟩ := h.made
    obtain ⟨w, hm, hn, -⟩ := new_ok h1
    obtain ⟨d', e, w', hm', hn', -⟩ := runSets_slots w ops h2
    rw [h3] at e; injection e with e; subst e
    have := w'.mlt
    omega
  have key : ∀ i j, i < n → j < n → i ≠ j → D x y ≤ D i j := by
    intro i j hi hj hij
    rcases Nat.lt_or_ge i j with hlt | hge
    · have := hv i j hlt (by omega) (by omega)
      simpa [floatArith] using this
    · have := hv j i (by omega) (by omega) (by omega)
      rw [hD i j]
      simpa [floatArith] using this
  rcases hs with hs | hs
  · exact ⟨r, x, y, e, hd, hs, key⟩
  · exact ⟨r, y, x, e, hd, hD x y ▸ hs, fun i j h1 h2 h3 => hD x y ▸ key i j h1 h2 h3⟩

/-- Three objects, for the theorems above: the nearest ones are side by side. -/
example : ∃ d₀ d, new Rat 2 3 = .ok d₀ ∧ runSets d₀ [(0, 1, 1), (2, 0, 1/2), (1, 2, 3/4)] = .ok d ∧
    clusterObjects (floatArith float32) d = .ok ⟨[0, 2, 1], [1/2, 7/8]⟩ ∧
    Side [0, 2, 1] [1/2, 7/8] 0 2 (1/2 : Rat) := by
  refine ⟨_, _, rfl, rfl, by decide +kernel, ⟨[], [1], [], [7/8], rfl, rfl, rfl⟩⟩

/-! ## How far merge levels are from the mean distances -/

/-- The error of one average: seven half units in the last place of one. -/
theorem avg_error (R : Rounding 24) {a b : Rat} {p q : Nat} (ha : 0 ≤ a ∧ a ≤ 1) (hb : 0 ≤ b ∧ b ≤ 1) (hp : 0 < p) (hq : 0 < q)
    (hpq : p + q ≤ 2 ^ 24) :
    (0 ≤ (floatArith R).avg a p b q ∧ (floatArith R).avg a p b q ≤ 1) ∧
      |(floatArith R).avg a p b q - ratArith.avg a p b q| ≤ 7 / 2 ^ 24 := by
  obtain ⟨a0, a1⟩ := ha
  obtain ⟨b0, b1⟩ := hb
  have hp' : (0 : Rat) < p := by exact_mod_cast hp
  have hq' : (0 : Rat) < q := by exact_mod_cast hq
  simp only [floatArith, ratArith]
  rw [R.keeps_nat p (by omega), R.keeps_nat q (by omega), R.keeps_nat (p + q) (by omega)]
  have x1 : R.rnd (a * p) ≤ p := R.le_nat (by omega) (by nlinarith)
  have x0 : 0 ≤ R.rnd (a * p) := R.nonneg (by positivity)
  have y1 : R.rnd (b * q) ≤ q := R.le_nat (by omega) (by nlinarith)
  have y0 : 0 ≤ R.rnd (b * q) := R.nonneg (by positivity)
  have z1 : R.rnd (R.rnd (a * p) + R.rnd (b * q)) ≤ (p + q : Nat) := R.le_nat (by omega) (by push_cast; linarith)
  have z0 : 0 ≤ R.rnd (R.rnd (a * p) + R.rnd (b * q)) := R.nonneg (by linarith)
  refine ⟨R.div_range z0 z1, ?_⟩
  obtain ⟨e, he1, he2, he3⟩ : ∃ e : Nat, p + q ≤ 2 ^ e ∧ 2 ^ e ≤ 2 * (p + q) ∧ e ≤ 24 := by
    refine ⟨Nat.clog 2 (p + q), Nat.le_pow_clog (by norm_num) _, ?_, Nat.clog_le_of_le_pow hpq⟩
    have h1 : 2 ^ (Nat.clog 2 (p + q) - 1) < p + q := Nat.pow_pred_clog_lt_self (by norm_num) (by omega)
    have h2 : 0 < Nat.clog 2 (p + q) := Nat.clog_pos (by norm_num) (by omega)
    obtain ⟨k, hk⟩ : ∃ k, Nat.clog 2 (p + q) = k + 1 := ⟨_, (Nat.succ_pred_eq_of_pos h2).symm⟩
    rw [hk] at h1 ⊢
    simp only [Nat.add_sub_cancel] at h1
    rw [pow_succ]; omega
  have hs : (p : Rat) + q ≤ 2 ^ (e : Int) := by rw [zpow_natCast]; exact_mod_cast he1
  have hs2 : (2 : Rat) ^ (e : Int) ≤ 2 * (p + q) := by rw [zpow_natCast]; exact_mod_cast he2
  have ex := R.abs_error (x := a * p) (by positivity) e (by nlinarith) (by omega) (by omega) (by norm_num)
  have ey := R.abs_error (x := b * q) (by positivity) e (by nlinarith) (by omega) (by omega) (by norm_num)
  have ez := R.abs_error (x := R.rnd (a * p) + R.rnd (b * q)) (by linarith) e (by linarith) (by omega) (by omega) (by norm_num)
  have hsum : |R.rnd (R.rnd (a * p) + R.rnd (b * q)) - (a * p + b * q)| ≤ 3 * (2 ^ (e : Int) / 2 ^ 24) := by
    rw [abs_le] at *
    constructor <;> linarith [ex.1, ex.2, ey.1, ey.2, ez.1, ez.2]
  set Z := R.rnd (R.rnd (a * p) + R.rnd (b * q)) with hZ
  have hpos : (0 : Rat) < ((p + q : Nat) : Rat) := by push_cast; linarith
  have hdiv : |Z / ((p + q : Nat) : Rat) - (a * p + b * q) / ((p + q : Nat) : Rat)| ≤ 6 / 2 ^ 24 := by
    rw [← sub_div, abs_div, abs_of_pos hpos, div_le_iff₀ hpos]
    refine hsum.trans ?_
    push_cast
    linarith
  have hr := R.abs_error (x := Z / ((p + q : Nat) : Rat)) (by positivity) 0 (by rw [zpow_zero]; exact div_le_one_of_le₀ z1 hpos.le) (by norm_num) (by norm_num)
    (by norm_num)
  rw [zpow_zero] at hr
  rw [abs_le] at *
  constructor <;> linarith [hdiv.1, hdiv.2, hr.1, hr.2]

/-- As `Tree`, but the levels are only near the mean distances of the joined clusters, and may decrease. -/
inductive NearTree (D : Nat → Nat → Rat) (err : Rat) : List Nat → List Rat → Prop
  | single (o : Nat) : NearTree D err [o] []
  | merge {a b : List Nat} {la lb : List Rat} {l : Rat} : NearTree D err a la → NearTree D err b lb → |l - mean D a b| ≤ err →
      NearTree D err (a ++ b) (la ++ l :: lb)

theorem NearTree.reverse {D} {err : Rat} (hD : ∀ i j, D i j = D j i) {a l} (h : NearTree D err a l) : NearTree D err a.reverse l.reverse := by
  induction h with
  | single o => exact .single o
  | @merge a b la lb l h1 h2 hle ih1 ih2 =>
    have e : mean D b.reverse a.reverse = mean D a b := by
      rw [mean_comm hD]; exact mean_perm (List.reverse_perm a) (List.reverse_perm b)
    have := NearTree.merge ih2 ih1 (e ▸ hle)
    simpa using this

/-- The invariant after `k` merges. -/
structure Near (D0 : Nat → Nat → Rat) (err : Rat) (n k : Nat) (D : Nat → Nat → Rat) (cl : Nat → List Nat) (lv : Nat → Option Rat)
    (G : Nat → List Rat) : Prop where
  gaps : ∀ i < n, (cl i).tail.map lv = (G i).map some
  range : ∀ i j, 0 ≤ D i j ∧ D i j ≤ 1
  mean : ∀ i < n, ∀ j < n, i ≠ j → cl i ≠ [] → cl j ≠ [] → |D i j - mean D0 (cl i) (cl j)| ≤ k * (7 / 2 ^ 24)
  tree : ∀ i < n, cl i ≠ [] → NearTree D0 err (cl i) (G i)

theorem nearPiece {D0} {err : Rat} (hD : ∀ i j, D0 i j = D0 j i) {c : List Nat} {gc : List Rat} {o : List Nat} {g : List (Option Rat)}
    (ht : NearTree D0 err c gc) (h : (o = c ∧ g = gc.map some) ∨ (o = c.reverse ∧ g = (gc.map some).reverse)) :
    ∃ h, g = h.map some ∧ NearTree D0 err o h ∧ o.Perm c := by
  rcases h with ⟨rfl, rfl⟩ | ⟨rfl, rfl⟩
  · exact ⟨gc, rfl, ht, List.Perm.refl _⟩
  · exact ⟨gc.reverse, by simp, ht.reverse hD, List.reverse_perm _⟩

theorem Near.step (R : Rounding 24) {D0} (hD : ∀ i j, D0 i j = D0 j i) {m n k : Nat} (hmn : m + 1 = n) (hn : n ≤ 2 ^ 24) {D : Nat → Nat → Rat}
    {s s' : St Rat} {c1 c2 o1 o2 g1 g2} (hi : Inv m n k s.clusters s.levels) {G : Nat → List Rat}
    (hg : Near D0 (n * (7 / 2 ^ 24)) n k D s.clusters s.levels G) (hM : Merged (floatArith R) m n D0 D s s' c1 c2 o1 o2 g1 g2) :
    ∃ G', Near D0 (n * (7 / 2 ^ 24)) n (k + 1) (newD (floatArith R) s.clusters m c1 c2 D n) s'.clusters s'.levels G' := by
  have hc1 : c1 < c2 := hM.cell.1
  have hc2 : c1 < m := hM.cell.2.1
  have hc3 : c2 < n := hM.cell.2.2
  have hc4 : c1 < n := by omega
  have hk : k ≤ n := by have := hi.count; omega
  obtain ⟨h1, rfl, p1, q1⟩ := nearPiece hD (hg.tree c1 hc4 hM.act1) (by rw [← hg.gaps c1 hc4]; exact hM.left)
  obtain ⟨h2, rfl, p2, q2⟩ := nearPiece hD (hg.tree c2 hc3 hM.act2) (by rw [← hg.gaps c2 hc3]; exact hM.right)
  have hcl : ∀ i, s'.clusters i = if i = c2 then [] else if i = c1 then o1 ++ o2 else s.clusters i := by
    intro i; rw [hM.clusters]; rfl
  have hoo : (o1 ++ o2).Perm (s.clusters c1 ++ s.clusters c2) := q1.append q2
  have hsz : (s.clusters c1).length + (s.clusters c2).length ≤ n := by
    have hnd : (s.clusters c1 ++ s.clusters c2).Nodup := by
      rw [List.nodup_append]
      refine ⟨hi.nodup c1 hc4, hi.nodup c2 hc3, ?_⟩
      rintro x hx y hy rfl
      have := hi.disj c1 hc4 c2 hc3 x hx hy
      omega
    have := List.Subperm.length_le (List.subperm_of_subset hnd (l₂ := List.range n) (fun x hx => by
      rcases List.mem_append.1 hx with hx | hx
      · exact List.mem_range.2 (hi.bound c1 hc4 x hx)
      · exact List.mem_range.2 (hi.bound c2 hc3 x hx)))
    simpa using this
  have P1 := List.length_pos_iff.2 hM.act1
  have P2 := List.length_pos_iff.2 hM.act2
  have av : ∀ i, (0 ≤ (floatArith R).avg (D i c1) (s.clusters c1).length (D i c2) (s.clusters c2).length ∧
      (floatArith R).avg (D i c1) (s.clusters c1).length (D i c2) (s.clusters c2).length ≤ 1) ∧
      |(floatArith R).avg (D i c1) (s.clusters c1).length (D i c2) (s.clusters c2).length -
        ratArith.avg (D i c1) (s.clusters c1).length (D i c2) (s.clusters c2).length| ≤ 7 / 2 ^ 24 :=
    fun i => avg_error R (hg.range _ _) (hg.range _ _) P1 P2 (by omega)
  have hmean1 : ∀ i < n, i ≠ c1 → i ≠ c2 → s.clusters i ≠ [] →
      |(floatArith R).avg (D i c1) (s.clusters c1).length (D i c2) (s.clusters c2).length - Cluster.mean D0 (s.clusters i) (o1 ++ o2)|
        ≤ ((k + 1 : Nat) : Rat) * (7 / 2 ^ 24) := by
    intro i hin n1 n2 hne
    rw [mean_perm (List.Perm.refl _) hoo, mean_merge hne hM.act1 hM.act2]
    have a := (av i).2
    have b1 := hg.mean i hin c1 hc4 n1 hne hM.act1
    have b2 := hg.mean i hin c2 hc3 n2 hne hM.act2
    generalize Cluster.mean D0 (s.clusters i) (s.clusters c1) = m1 at *
    generalize Cluster.mean D0 (s.clusters i) (s.clusters c2) = m2 at *
    generalize (floatArith R).avg (D i c1) (s.clusters c1).length (D i c2) (s.clusters c2).length = v at *
    simp only [ratArith] at a
    generalize (s.clusters c1).length = p at *
    generalize (s.clusters c2).length = q at *
    have hp : (0 : Rat) < p := by exact_mod_cast P1
    have hq : (0 : Rat) < q := by exact_mod_cast P2
    have hpq : (0 : Rat) < ((p + q : Nat) : Rat) := by push_cast; linarith
    have c : |(D i c1 * p + D i c2 * q) / ((p + q : Nat) : Rat) - (m1 * p + m2 * q) / ((p + q : Nat) : Rat)| ≤ k * (7 / 2 ^ 24) := by
      rw [← sub_div, abs_div, abs_of_pos hpq, div_le_iff₀ hpq]
      rw [abs_le] at *
      push_cast
      constructor <;> nlinarith [b1.1, b1.2, b2.1, b2.2]
    rw [abs_le] at *
    push_cast at *
    constructor <;> linarith [a.1, a.2, c.1, c.2]
  refine ⟨fun i => if i = c2 then [] else if i = c1 then h1 ++ D c1 c2 :: h2 else G i, ?_, ?_, ?_, ?_⟩
  · intro i hin
    rw [hcl]
    split
    · rfl
    · split
      · rw [hM.gaps]; simp
      · next q2 q1 =>
        rw [← hg.gaps i hin]
        apply List.map_congr_left
        intro o ho
        have ho := List.mem_of_mem_tail ho
        exact hM.other o (fun hc => q1 (hi.disj i hin c1 hc4 o ho hc)) (fun hc => q2 (hi.disj i hin c2 hc3 o ho hc))
  · intro i j
    unfold newD
    split
    · exact (av i).1
    · split
      · exact (av j).1
      · exact hg.range i j
  · intro i hin j hjn hij hi1 hj1
    rw [hcl] at hi1 hj1
    have w1 : i ≠ c2 := by rintro rfl; simp at hi1
    have w2 : j ≠ c2 := by rintro rfl; simp at hj1
    rw [if_neg w1] at hi1
    rw [if_neg w2] at hj1
    rw [hcl, hcl, if_neg w1, if_neg w2]
    unfold newD
    by_cases r1 : j = c1
    · subst r1
      rw [if_neg hij] at hi1 ⊢
      rw [if_pos rfl, if_pos ⟨rfl, ⟨hi1, hij, w1, by omega⟩, hin⟩]
      exact hmean1 i hin hij w1 hi1
    · rw [if_neg r1] at hj1 ⊢
      by_cases r2 : i = c1
      · subst r2
        rw [if_pos rfl, if_neg (by rintro ⟨a, -⟩; exact r1 a), if_pos ⟨rfl, ⟨hj1, r1, w2, by omega⟩, hjn⟩, mean_comm hD]
        exact hmean1 j hjn r1 w2 hj1
      · rw [if_neg r2] at hi1 ⊢
        rw [if_neg (by rintro ⟨a, -⟩; exact r1 a), if_neg (by rintro ⟨a, -⟩; exact r2 a)]
        refine (hg.mean i hin j hjn hij hi1 hj1).trans ?_
        push_cast
        linarith
  · intro i hin hne
    rw [hcl] at hne ⊢
    split
    · next q => simp [q] at hne
    · split
      · refine .merge p1 p2 ?_
        rw [mean_perm q1 q2]
        refine (hg.mean c1 hc4 c2 hc3 (by omega) hM.act1 hM.act2).trans ?_
        have : (k : Rat) ≤ n := by exact_mod_cast hk
        linarith
      · next q1 q2 => rw [if_neg q1, if_neg q2] at hne; exact hg.tree i hin hne

/-- **C59**, with rounding: of up to 2^24 objects with `float` distances in [0, 1], every merge level is the mean distance of the two clusters it
joins, with an error of at most `n * 7 / 2^24`, whatever the rounding mode is. -/
theorem C59_float_mean (R : Rounding 24) {d : Matrix Rat} {m n : Nat} {D : Nat → Nat → Rat} (h : Filled 0 d m n D)
    (hD : ∀ i j, D i j = D j i) (hmn : n ≤ m + 1) (hn : n ≤ 2 ^ 24) (hr : ∀ i j, 0 ≤ D i j ∧ D i j ≤ 1) :
    ∃ r, clusterObjects (floatArith R) d = .ok r ∧ NearTree D (n * (7 / 2 ^ 24)) r.order r.levels := by
  have hshape : d.n = n ∧ d.m + 1 = d.n := by
    obtain ⟨d₀, ops, h1, h2, h3⟩ := h.made
    obtain ⟨w, hm, hn, -⟩ := new_ok h1
    obtain ⟨d', e, w', hm', hn', -⟩ := runSets_slots w ops h2
    rw [h3] at e; injection e with e; subst e
    have := w'.mlt
    omega
  obtain ⟨r, D', s, e, hperm, hlen, ho, hl, hp, hi⟩ := cluster_result (floatArith R) h
    (fun D' s => ∀ k, Inv d.m d.n k s.clusters s.levels → ∃ G, Near D (d.n * (7 / 2 ^ 24)) d.n k D' s.clusters s.levels G)
    (by
      intro k _
      refine ⟨fun _ => [], by simp, hr, ?_, fun i _ _ => .single i⟩
      intro i _ j _ _ _ _
      simp only [Cluster.mean, List.map_cons, List.map_nil, List.sum_cons, List.sum_nil, List.length_cons, List.length_nil]
      norm_num)
    (by
      intro k D' s s' c1 c2 o1 o2 g1 g2 hi hp hM k' hi'
      obtain ⟨G, hg⟩ := hp k hi
      have e : k' = k + 1 := by
        have := (hM.inv _ (by omega) hi).count
        have := hi'.count
        omega
      subst e
      exact Near.step R hD hshape.2 (by omega) hi hg hM)
  obtain ⟨G, hg⟩ := hp _ hi
  have hn0 : 0 < d.n := by omega
  have hlv : r.levels = G 0 := by
    have := hg.gaps 0 hn0
    rw [← ho, hl] at this
    exact map_some_inj this
  refine ⟨r, e, ?_⟩
  rw [hlv, ho, ← hshape.1]
  exact hg.tree 0 hn0 hi.zero

end Satyr.Cluster
