import Verif.Cluster.Cut
import Verif.Distances.Props
import Mathlib.Data.List.Nodup
import Mathlib.Data.List.Dedup
/-!
# Lemmas about the clustering loop
-/
namespace Satyr.Cluster
open Satyr.Distances

variable {α : Type} (A : Arith α)

/-- The matrix is well-formed and holds the distances `D`. -/
structure Holds (d : Matrix α) (m n : Nat) (D : Nat → Nat → α) : Prop where
  wf : WF d
  hm : d.m = m
  hn : d.n = n
  slots : ∀ i j, InRange m n i j → slot d (min i j) (max i j) = some (D i j)

theorem Holds.get {d : Matrix α} {m n D} (h : Holds d m n D) (zero : α) {i j} (hr : InRange m n i j) :
    get zero d i j = .ok (D i j) := by
  rw [get_eq, if_neg hr.1, h.hm, h.hn, if_pos hr, h.slots i j hr]

theorem Holds.symm {d : Matrix α} {m n D} (h : Holds d m n D) {i j} (hr : InRange m n i j) : D i j = D j i := by
  have h1 := h.slots i j hr
  have h2 := h.slots j i ⟨fun e => hr.1 e.symm, by rw [Nat.min_comm]; exact hr.2.1, by rw [Nat.max_comm]; exact hr.2.2⟩
  rw [Nat.min_comm, Nat.max_comm, h1] at h2
  exact Option.some.inj h2

theorem Holds.set {d : Matrix α} {m n D} (h : Holds d m n D) {i j} (hr : InRange m n i j) (v : α) :
    ∃ d', Distances.set d i j v = .ok d' ∧
      Holds d' m n (fun a b => if (a = i ∧ b = j) ∨ (a = j ∧ b = i) then v else D a b) := by
  obtain ⟨w, hm, hn, hs⟩ := h
  subst hm hn
  refine ⟨_, set_ok w hr, w.writeAll _, rfl, rfl, ?_⟩
  intro a b hab
  have := slot_set w (i := min i j) (j := max i j) (i' := min a b) (j' := max a b)
    (by have := hr.1; omega) hr.2.1 hr.2.2 (by have := hab.1; omega) hab.2.2 v
  rw [show writeAll d [((min i j, max i j), v)] =
    { d with data := d.data.set (position d.n (min i j : Nat) (max i j : Nat)).toNat (some v) } from rfl, this]
  have hiff : (min a b = min i j ∧ max a b = max i j) ↔ ((a = i ∧ b = j) ∨ (a = j ∧ b = i)) := by omega
  simp only [hiff]
  split
  · rfl
  · exact hs a b hab

/-- The result of the search for the nearest clusters. -/
theorem findMin_list {d : Matrix α} {m n D} (h : Holds d m n D) (cl : Nat → List Nat) (l : List (Nat × Nat))
    (hl : ∀ c ∈ l, Cell m n c) :
    ∃ r, l.foldlM (fun acc (ij : Nat × Nat) =>
        if cl ij.1 = [] ∨ cl ij.2 = [] then Out.ok acc else do
          let dist ← Distances.get A.zero d ij.1 ij.2
          match acc with
          | none => .ok (some (dist, ij.1, ij.2))
          | some (mn, c) => .ok (if A.gt mn dist then some (dist, ij.1, ij.2) else some (mn, c))) none = .ok r ∧
      (r = none → ∀ c ∈ l, cl c.1 = [] ∨ cl c.2 = []) ∧
      (∀ v c1 c2, r = some (v, c1, c2) → (c1, c2) ∈ l ∧ cl c1 ≠ [] ∧ cl c2 ≠ [] ∧ v = D c1 c2 ∧
        ((∀ a, A.gt a a = false) → (∀ a b c, A.gt a b = true → A.gt a c = false → A.gt b c = false) →
          ∀ c ∈ l, cl c.1 ≠ [] → cl c.2 ≠ [] → A.gt v (D c.1 c.2) = false)) := by
  induction l using List.reverseRecOn with
  | nil => exact ⟨none, rfl, by simp, by simp⟩
  | append_singleton l x ih =>
    obtain ⟨r, e, h1, h2⟩ := ih (fun c hc => hl c (by simp [hc]))
    have hx := hl x (by simp)
    have hget : Distances.get A.zero d x.1 x.2 = .ok (D x.1 x.2) :=
      h.get A.zero ⟨by have := hx.1; omega, by have := hx.1; have := hx.2.1; omega, by have := hx.1; have := hx.2.2; omega⟩
    rw [List.foldlM_append, e]
    simp only [Out.bind_ok, List.foldlM_cons, List.foldlM_nil, Out.pure_eq]
    by_cases hact : cl x.1 = [] ∨ cl x.2 = []
    · rw [if_pos hact]
      refine ⟨r, rfl, ?_, ?_⟩
      · intro hr c hc
        rcases List.mem_append.1 hc with hc | hc
        · exact h1 hr c hc
        · simp at hc; subst hc; exact hact
      · intro v c1 c2 hr
        obtain ⟨a1, a2, a3, a4, a5⟩ := h2 v c1 c2 hr
        refine ⟨by simp [a1], a2, a3, a4, ?_⟩
        intro g1 g2 c hc n1 n2
        rcases List.mem_append.1 hc with hc | hc
        · exact a5 g1 g2 c hc n1 n2
        · simp at hc; subst hc; rcases hact with hh | hh <;> contradiction
    · rw [if_neg hact, hget]
      simp only [Out.bind_ok]
      have hact' : cl x.1 ≠ [] ∧ cl x.2 ≠ [] := by
        constructor <;> (intro hc; exact hact (by simp [hc]))
      rcases r with _ | ⟨mn, c⟩
      · refine ⟨_, rfl, by simp, ?_⟩
        intro v c1 c2 hr
        simp only [Option.some.injEq, Prod.mk.injEq] at hr
        obtain ⟨rfl, rfl, rfl⟩ := hr
        refine ⟨by simp, hact'.1, hact'.2, rfl, ?_⟩
        intro g1 _ c hc n1 n2
        rcases List.mem_append.1 hc with hc | hc
        · rcases h1 rfl c hc with hh | hh <;> contradiction
        · simp at hc; subst hc; exact g1 _
      · simp only
        by_cases hgt : A.gt mn (D x.1 x.2) = true
        · rw [if_pos hgt]
          refine ⟨_, rfl, by simp, ?_⟩
          intro v c1 c2 hr
          simp only [Option.some.injEq, Prod.mk.injEq] at hr
          obtain ⟨rfl, rfl, rfl⟩ := hr
          refine ⟨by simp, hact'.1, hact'.2, rfl, ?_⟩
          intro g1 g2 c' hc n1 n2
          rcases List.mem_append.1 hc with hc | hc
          · exact g2 mn _ _ hgt ((h2 mn c.1 c.2 rfl).2.2.2.2 g1 g2 c' hc n1 n2)
          · simp at hc; subst hc; exact g1 _
        · rw [if_neg hgt]
          refine ⟨_, rfl, by simp, ?_⟩
          intro v c1 c2 hr
          obtain ⟨a1, a2, a3, a4, a5⟩ := h2 v c1 c2 hr
          refine ⟨by simp [a1], a2, a3, a4, ?_⟩
          intro g1 g2 c' hc n1 n2
          rcases List.mem_append.1 hc with hc | hc
          · exact a5 g1 g2 c' hc n1 n2
          · simp at hc; subst hc
            simp only [Option.some.injEq, Prod.mk.injEq] at hr
            rw [← hr.1]; simpa using hgt

theorem findMin_spec {d : Matrix α} {m n D} (h : Holds d m n D) (cl : Nat → List Nat)
    (hact : ∃ i j, Cell m n (i, j) ∧ cl i ≠ [] ∧ cl j ≠ []) :
    ∃ c1 c2, findMin A d cl m n = .ok (some (D c1 c2, c1, c2)) ∧ Cell m n (c1, c2) ∧ cl c1 ≠ [] ∧ cl c2 ≠ [] ∧
        ((∀ a, A.gt a a = false) → (∀ a b c, A.gt a b = true → A.gt a c = false → A.gt b c = false) →
          ∀ i j, Cell m n (i, j) → cl i ≠ [] → cl j ≠ [] → A.gt (D c1 c2) (D i j) = false) := by
  obtain ⟨r, e, h1, h2⟩ := findMin_list A h cl (loopPairs m n) (fun c hc => mem_loopPairs.1 hc)
  rcases r with _ | ⟨v, c1, c2⟩
  · obtain ⟨i, j, hc, n1, n2⟩ := hact
    rcases h1 rfl (i, j) (mem_loopPairs.2 hc) with hh | hh <;> contradiction
  · obtain ⟨a1, a2, a3, a4, a5⟩ := h2 v c1 c2 rfl
    subst a4
    exact ⟨c1, c2, e, mem_loopPairs.1 a1, a2, a3, fun g1 g2 i j hc => a5 g1 g2 (i, j) (mem_loopPairs.2 hc)⟩

/-- Which distances to the merged cluster are recomputed. -/
def Cond (cl : Nat → List Nat) (m c1 c2 i : Nat) : Prop := cl i ≠ [] ∧ i ≠ c1 ∧ i ≠ c2 ∧ (c2 < m ∨ i < m)

instance (cl m c1 c2 i) : Decidable (Cond cl m c1 c2 i) := by unfold Cond; infer_instance

/-- The distances after a merge. -/
def newD (cl : Nat → List Nat) (m c1 c2 : Nat) (D : Nat → Nat → α) (k : Nat) (a b : Nat) : α :=
  if b = c1 ∧ Cond cl m c1 c2 a ∧ a < k then A.avg (D a c1) (cl c1).length (D a c2) (cl c2).length
  else if a = c1 ∧ Cond cl m c1 c2 b ∧ b < k then A.avg (D b c1) (cl c1).length (D b c2) (cl c2).length
  else D a b

theorem updateDist_spec {d : Matrix α} {m n D} (h : Holds d m n D) (cl : Nat → List Nat) {c1 c2 : Nat}
    (hc : Cell m n (c1, c2)) (k : Nat) (hk : k ≤ n) :
    ∃ d', (List.range k).foldlM (updateStep A cl m c1 c2) d = .ok d' ∧ Holds d' m n (newD A cl m c1 c2 D k) := by
  have hc1 : c1 < c2 := hc.1
  have hc2 : c1 < m := hc.2.1
  have hc3 : c2 < n := hc.2.2
  induction k with
  | zero => exact ⟨d, rfl, by
      have : newD A cl m c1 c2 D 0 = D := by funext a b; simp [newD]
      rw [this]; exact h⟩
  | succ k ih =>
    obtain ⟨d', e, h'⟩ := ih (by omega)
    rw [List.range_succ, List.foldlM_append, e]
    simp only [Out.bind_ok, List.foldlM_cons, List.foldlM_nil, Out.pure_eq]
    by_cases hcond : Cond cl m c1 c2 k
    · obtain ⟨n1, n2, n3, n4⟩ := hcond
      have r1 : InRange m n k c1 := ⟨n2, by omega, by omega⟩
      have r2 : InRange m n k c2 := ⟨n3, by omega, by omega⟩
      have g1 : newD A cl m c1 c2 D k k c1 = D k c1 := by
        unfold newD
        rw [if_neg (by omega), if_neg (by omega)]
      have g2 : newD A cl m c1 c2 D k k c2 = D k c2 := by
        unfold newD
        rw [if_neg (by omega), if_neg (by omega)]
      obtain ⟨d'', e'', h''⟩ := h'.set r1 (A.avg (D k c1) (cl c1).length (D k c2) (cl c2).length)
      refine ⟨d'', ?_, ?_⟩
      · unfold updateStep
        rw [if_neg (by simp [n1, n2, n3]), if_neg (not_not_intro n4), h'.get A.zero r1, h'.get A.zero r2]
        simp only [Out.bind_ok, g1, g2]
        rw [e'']; rfl
      · have : newD A cl m c1 c2 D (k + 1) = fun a b => if (a = k ∧ b = c1) ∨ (a = c1 ∧ b = k) then
            A.avg (D k c1) (cl c1).length (D k c2) (cl c2).length else newD A cl m c1 c2 D k a b := by
          have hck : Cond cl m c1 c2 k := ⟨n1, n2, n3, n4⟩
          have hlt : ∀ a, a < k + 1 ↔ a < k ∨ a = k := by intro a; omega
          funext a b
          unfold newD
          by_cases q1 : a = k ∧ b = c1
          · obtain ⟨rfl, rfl⟩ := q1
            rw [if_pos ⟨rfl, hck, by omega⟩, if_pos (Or.inl ⟨rfl, rfl⟩)]
          · by_cases q2 : a = c1 ∧ b = k
            · obtain ⟨rfl, rfl⟩ := q2
              rw [if_neg (by omega), if_pos ⟨rfl, hck, by omega⟩, if_pos (Or.inr ⟨rfl, rfl⟩)]
            · rw [if_neg (show ¬ ((a = k ∧ b = c1) ∨ (a = c1 ∧ b = k)) by omega)]
              have p1 : (b = c1 ∧ Cond cl m c1 c2 a ∧ a < k + 1) ↔ (b = c1 ∧ Cond cl m c1 c2 a ∧ a < k) := by
                constructor
                · rintro ⟨x, y, z⟩; exact ⟨x, y, by omega⟩
                · rintro ⟨x, y, z⟩; exact ⟨x, y, by omega⟩
              have p2 : (a = c1 ∧ Cond cl m c1 c2 b ∧ b < k + 1) ↔ (a = c1 ∧ Cond cl m c1 c2 b ∧ b < k) := by
                constructor
                · rintro ⟨x, y, z⟩; exact ⟨x, y, by omega⟩
                · rintro ⟨x, y, z⟩; exact ⟨x, y, by omega⟩
              simp only [p1, p2]
        rw [this]; exact h''
    · refine ⟨d', ?_, ?_⟩
      · unfold updateStep
        by_cases q : cl k = [] ∨ k = c1 ∨ k = c2
        · rw [if_pos q]; rfl
        · rw [if_neg q]
          rw [if_pos (by
            intro hq
            simp only [not_or] at q
            exact hcond ⟨q.1, q.2.1, q.2.2, hq⟩)]
          rfl
      · have : newD A cl m c1 c2 D (k + 1) = newD A cl m c1 c2 D k := by
          funext a b
          unfold newD
          have p : ∀ a, (Cond cl m c1 c2 a ∧ a < k + 1) ↔ (Cond cl m c1 c2 a ∧ a < k) := by
            intro a
            constructor
            · rintro ⟨x, y⟩
              refine ⟨x, ?_⟩
              rcases Nat.lt_or_ge a k with hh | hh
              · exact hh
              · have : a = k := by omega
                subst this; exact absurd x hcond
            · rintro ⟨x, y⟩; exact ⟨x, by omega⟩
          simp only [p]
        rw [this]; exact h'

theorem ends_ok {c : List Nat} (h : c ≠ []) : ∃ a b, ends c = .ok (a, b) ∧ a ∈ c ∧ b ∈ c ∧ c.head? = some a ∧
    c.getLast? = some b := by
  refine ⟨c.head h, c.getLast h, ?_, List.head_mem h, List.getLast_mem h, List.head?_eq_some_head h, List.getLast?_eq_some_getLast h⟩
  unfold ends
  rw [List.head?_eq_some_head h, List.getLast?_eq_some_getLast h]

/-- The first and the last object. -/
def endsOf (c : List Nat) : List Nat := c.head?.toList ++ c.getLast?.toList

/-- The last object of one sequence and the first of the next are as near to each other as any two ends of the sequences. -/
def Close (le : α → α → Bool) (D : Nat → Nat → α) (a b : List Nat) : Prop :=
  ∀ p ∈ a.getLast?, ∀ q ∈ b.head?, ∀ x ∈ endsOf a, ∀ y ∈ endsOf b, le (D p q) (D x y) = true

theorem least4 {le : α → α → Bool} (tot : ∀ a b, le a b = true ∨ le b a = true)
    (tr : ∀ a b c, le a b = true → le b c = true → le a c = true) {w x y z : α}
    (h0 : ¬ (le w x = true ∧ le w y = true ∧ le w z = true)) (h1 : ¬ (le x w = true ∧ le x y = true ∧ le x z = true))
    (h2 : ¬ (le y w = true ∧ le y x = true ∧ le y z = true)) : le z w = true ∧ le z x = true ∧ le z y = true := by
  have pick : ∀ v, (le v w = true ∧ le v x = true ∧ le v y = true) → ¬ le v z = true → le z w = true ∧ le z x = true ∧ le z y = true := by
    intro v hv hz
    have := (tot v z).resolve_left hz
    exact ⟨tr _ _ _ this hv.1, tr _ _ _ this hv.2.1, tr _ _ _ this hv.2.2⟩
  have rf : ∀ a, le a a = true := fun a => (tot a a).elim id id
  rcases tot w x with a | a
  · rcases tot w y with b | b
    · exact pick w ⟨rf _, a, b⟩ fun h => h0 ⟨a, b, h⟩
    · exact pick y ⟨b, tr _ _ _ b a, rf _⟩ fun h => h2 ⟨b, tr _ _ _ b a, h⟩
  · rcases tot x y with b | b
    · exact pick x ⟨a, rf _, b⟩ fun h => h1 ⟨a, b, h⟩
    · exact pick y ⟨tr _ _ _ b a, b, rf _⟩ fun h => h2 ⟨tr _ _ _ b a, b, h⟩

theorem reversals_ok {d : Matrix α} {m n D} (h : Holds d m n D) {a b : List Nat} (ha : a ≠ []) (hb : b ≠ [])
    (hla : ∀ x ∈ a, x < n) (hlb : ∀ x ∈ b, x < n) (hd : ∀ x ∈ a, x ∉ b) :
    ∃ r1 r2, reversals A d m n a b = .ok (r1, r2) ∧
      (m + 1 = n → (∀ a b, A.le a b = true ∨ A.le b a = true) → (∀ a b c, A.le a b = true → A.le b c = true → A.le a c = true) →
        Close A.le D (if r1 then a.reverse else a) (if r2 then b.reverse else b)) := by
  unfold reversals
  split
  · next hmn =>
    obtain ⟨a0, a1, ea, ha0, ha1, fa, la⟩ := ends_ok ha
    obtain ⟨b0, b1, eb, hb0, hb1, fb, lb⟩ := ends_ok hb
    have key : ∀ x ∈ a, ∀ y ∈ b, InRange m n x y := by
      intro x hx y hy
      have h1 := hla x hx
      have h2 := hlb y hy
      have h3 : x ≠ y := by rintro rfl; exact hd x hx hy
      exact ⟨h3, by omega, by omega⟩
    rw [ea, eb]
    simp only [Out.bind_ok]
    rw [h.get A.zero (key a0 ha0 b0 hb0), h.get A.zero (key a1 ha1 b0 hb0), h.get A.zero (key a0 ha0 b1 hb1),
      h.get A.zero (key a1 ha1 b1 hb1)]
    simp only [Out.bind_ok]
    have hends : ∀ {P : Nat → Nat → Prop}, (∀ x ∈ endsOf a, ∀ y ∈ endsOf b, P x y) ↔ P a0 b0 ∧ P a1 b0 ∧ P a0 b1 ∧ P a1 b1 := by
      intro P
      simp only [endsOf, fa, la, fb, lb, Option.toList_some, List.mem_append, List.mem_singleton, or_imp, forall_and, forall_eq]
      tauto
    have er : ∀ c, ∀ x, x ∈ endsOf (List.reverse c) ↔ x ∈ endsOf c := by
      intro c x
      simp only [endsOf, List.head?_reverse, List.getLast?_reverse, List.mem_append]
      exact or_comm
    split
    · next hc =>
      simp only [Bool.and_eq_true] at hc
      refine ⟨_, _, rfl, fun _ tot tr => ?_⟩
      intro p hp q hq
      simp only [Bool.false_eq_true, if_false, la, fb, Option.mem_def, Option.some.injEq] at hp hq ⊢
      subst hp hq
      rw [hends]
      exact ⟨hc.1.1, (tot _ _).elim id id, hc.1.2, hc.2⟩
    · next hc1 =>
      split
      · next hc =>
        simp only [Bool.and_eq_true] at hc
        refine ⟨_, _, rfl, fun _ tot tr => ?_⟩
        intro p hp q hq
        simp only [Bool.false_eq_true, if_false, if_true, List.getLast?_reverse, fa, fb, Option.mem_def, Option.some.injEq, er] at hp hq ⊢
        subst hp hq
        rw [hends]
        exact ⟨(tot _ _).elim id id, hc.1.1, hc.1.2, hc.2⟩
      · next hc2 =>
        split
        · next hc =>
          simp only [Bool.and_eq_true] at hc
          refine ⟨_, _, rfl, fun _ tot tr => ?_⟩
          intro p hp q hq
          simp only [if_true, List.getLast?_reverse, List.head?_reverse, fa, lb, Option.mem_def, Option.some.injEq, er] at hp hq ⊢
          subst hp hq
          rw [hends]
          exact ⟨hc.1.1, hc.1.2, (tot _ _).elim id id, hc.2⟩
        · next hc3 =>
          refine ⟨_, _, rfl, fun _ tot tr => ?_⟩
          intro p hp q hq
          simp only [Bool.false_eq_true, if_false, if_true, List.head?_reverse, la, lb, Option.mem_def, Option.some.injEq, er] at hp hq ⊢
          subst hp hq
          rw [hends]
          simp only [Bool.and_eq_true] at hc1 hc2 hc3
          obtain ⟨m0, m1, m2⟩ := least4 tot tr (fun h => hc2 ⟨⟨h.1, h.2.1⟩, h.2.2⟩) (fun h => hc1 ⟨⟨h.1, h.2.1⟩, h.2.2⟩)
            (fun h => hc3 ⟨⟨h.1, h.2.1⟩, h.2.2⟩)
          exact ⟨m0, m1, m2, (tot _ _).elim id id⟩
  · next hmn => exact ⟨_, _, rfl, fun h => absurd h hmn⟩

theorem shiftLevels_ok {n : Nat} (c : List Nat) (lv : Nat → Option α) (hnd : c.Nodup) (hlt : ∀ o ∈ c, o < n)
    (hs : ∀ o ∈ c.tail, (lv o).isSome) :
    ∃ lv', shiftLevels n c lv = .ok lv' ∧ (∀ o, o ∉ c → lv' o = lv o) ∧
      c.reverse.tail.map lv' = (c.tail.map lv).reverse := by
  induction c generalizing lv with
  | nil => exact ⟨lv, rfl, fun _ _ => rfl, rfl⟩
  | cons a c ih =>
    match c with
    | [] => exact ⟨lv, rfl, fun _ _ => rfl, rfl⟩
    | b :: rest =>
      have hb := hs b (by simp)
      obtain ⟨v, hv⟩ := Option.isSome_iff_exists.1 hb
      have hab : a ∉ b :: rest := (List.nodup_cons.1 hnd).1
      obtain ⟨lv', e, h1, h2⟩ := ih (upd lv a (some v)) (List.nodup_cons.1 hnd).2 (fun o ho => hlt o (by simp [ho]))
        (by
          intro o ho
          have ho' : o ∈ rest := by simpa using ho
          have : o ≠ a := by rintro rfl; exact hab (by simp [ho'])
          simp only [upd, this, if_false]
          exact hs o (by simp [ho']))
      refine ⟨lv', ?_, ?_, ?_⟩
      · unfold shiftLevels
        simp only [readLevel, writeLevel, hlt b (by simp), hlt a (by simp), if_true, hv, Out.bind_ok]
        exact e
      · intro o ho
        simp only [List.mem_cons, not_or] at ho
        rw [h1 o (by simp [ho.2])]
        simp [upd, ho.1]
      · have ha : lv' a = some v := by rw [h1 a hab]; simp [upd]
        have hrest : rest.map (upd lv a (some v)) = rest.map lv := by
          apply List.map_congr_left
          intro o ho
          have : o ≠ a := by rintro rfl; exact hab (by simp [ho])
          simp [upd, this]
        simp only [List.tail_cons, hrest] at h2
        simp only [List.tail_cons, List.map_cons, List.reverse_cons]
        rw [← h2, hv]
        have : (rest.reverse ++ [b] ++ [a]).tail = (rest.reverse ++ [b]).tail ++ [a] := by
          rw [List.tail_append_of_ne_nil (by simp)]
        rw [this]
        simp [ha]

/-- Result of a possible reversal: objects and gap levels are both kept or both reversed. -/
theorem maybeReverse_ok {n : Nat} (rev : Bool) (c : List Nat) (lv : Nat → Option α) (hnd : c.Nodup)
    (hlt : ∀ o ∈ c, o < n) (hs : ∀ o ∈ c.tail, (lv o).isSome) :
    ∃ c' lv', maybeReverse n rev c lv = .ok (c', lv') ∧ c' = (if rev then c.reverse else c) ∧ (∀ o, o ∉ c → lv' o = lv o) ∧
      ((c' = c ∧ c'.tail.map lv' = c.tail.map lv) ∨
       (c' = c.reverse ∧ c'.tail.map lv' = (c.tail.map lv).reverse)) := by
  unfold maybeReverse
  cases rev with
  | false => exact ⟨c, lv, rfl, rfl, fun _ _ => rfl, Or.inl ⟨rfl, rfl⟩⟩
  | true =>
    obtain ⟨lv', e, h1, h2⟩ := shiftLevels_ok c lv hnd hlt hs
    refine ⟨c.reverse, lv', ?_, rfl, h1, Or.inr ⟨rfl, h2⟩⟩
    simp [e]

/-- Structural invariant of the main loop after `k` merges. -/
structure Inv (m n k : Nat) (cl : Nat → List Nat) (lv : Nat → Option α) : Prop where
  nodup : ∀ i < n, (cl i).Nodup
  bound : ∀ i < n, ∀ x ∈ cl i, x < n
  disj : ∀ i < n, ∀ j < n, ∀ x ∈ cl i, x ∈ cl j → i = j
  cover : ∀ x < n, ∃ i < n, x ∈ cl i
  zero : cl 0 ≠ []
  count : ((List.range n).filter fun i => cl i ≠ []).length + k = n
  assigned : ∀ i < n, ∀ o ∈ (cl i).tail, (lv o).isSome

/-- Complete description of one merge. -/
structure Merged (m n : Nat) (D0 D : Nat → Nat → α) (s s' : St α) (c1 c2 : Nat) (o1 o2 : List Nat) (g1 g2 : List (Option α)) : Prop where
  cell : Cell m n (c1, c2)
  act1 : s.clusters c1 ≠ []
  act2 : s.clusters c2 ≠ []
  min : (∀ a, A.gt a a = false) → (∀ a b c, A.gt a b = true → A.gt a c = false → A.gt b c = false) →
          ∀ i j, Cell m n (i, j) → s.clusters i ≠ [] → s.clusters j ≠ [] → A.gt (D c1 c2) (D i j) = false
  dist : Holds s'.dist m n (newD A s.clusters m c1 c2 D n)
  clusters : s'.clusters = upd (upd s.clusters c1 (o1 ++ o2)) c2 []
  left : (o1 = s.clusters c1 ∧ g1 = (s.clusters c1).tail.map s.levels) ∨
    (o1 = (s.clusters c1).reverse ∧ g1 = ((s.clusters c1).tail.map s.levels).reverse)
  right : (o2 = s.clusters c2 ∧ g2 = (s.clusters c2).tail.map s.levels) ∨
    (o2 = (s.clusters c2).reverse ∧ g2 = ((s.clusters c2).tail.map s.levels).reverse)
  gaps : (o1 ++ o2).tail.map s'.levels = g1 ++ some (D c1 c2) :: g2
  other : ∀ o, o ∉ s.clusters c1 → o ∉ s.clusters c2 → s'.levels o = s.levels o
  close : m + 1 = n → (∀ a b, A.le a b = true ∨ A.le b a = true) → (∀ a b c, A.le a b = true → A.le b c = true → A.le a c = true) →
    Close A.le D0 o1 o2

theorem mergeOnce_spec {orig : Matrix α} {m n k : Nat} {D D0 : Nat → Nat → α} {s : St α} (h0 : Holds orig m n D0)
    (hd : Holds s.dist m n D) (hi : Inv m n k s.clusters s.levels) (hact : ∃ j, 0 < j ∧ j < n ∧ s.clusters j ≠ []) :
    ∃ s' c1 c2 o1 o2 g1 g2, mergeOnce A orig m n s = .ok s' ∧ Merged A m n D0 D s s' c1 c2 o1 o2 g1 g2 := by
  have hm : 0 < m := by have := hd.wf.mpos; rw [hd.hm] at this; exact this
  obtain ⟨j, hj0, hjn, hj⟩ := hact
  obtain ⟨c1, c2, e1, hc, a1, a2, hmin⟩ := findMin_spec A hd s.clusters ⟨0, j, ⟨hj0, hm, hjn⟩, hi.zero, hj⟩
  have hc1 : c1 < c2 := hc.1
  have hc2 : c1 < m := hc.2.1
  have hc3 : c2 < n := hc.2.2
  obtain ⟨d', e2, hd'⟩ := updateDist_spec A hd s.clusters hc n (Nat.le_refl _)
  obtain ⟨r1, r2, e3, hclose⟩ := reversals_ok A h0 a1 a2 (hi.bound c1 (by omega)) (hi.bound c2 hc3) (fun x h1 h2 => by
    have := hi.disj c1 (by omega) c2 hc3 x h1 h2; omega)
  obtain ⟨o1, lv1, e4, f1, l1, q1⟩ := maybeReverse_ok r1 (s.clusters c1) s.levels (hi.nodup c1 (by omega))
    (hi.bound c1 (by omega)) (hi.assigned c1 (by omega))
  have hdis : ∀ x ∈ s.clusters c2, x ∉ s.clusters c1 := fun x h1 h2 => by
    have := hi.disj c1 (by omega) c2 hc3 x h2 h1; omega
  have hlv1 : (s.clusters c2).tail.map lv1 = (s.clusters c2).tail.map s.levels := by
    apply List.map_congr_left
    intro o ho
    exact l1 o (hdis o (List.mem_of_mem_tail ho))
  obtain ⟨o2, lv2, e5, f2, l2, q2⟩ := maybeReverse_ok r2 (s.clusters c2) lv1 (hi.nodup c2 hc3) (hi.bound c2 hc3) (by
    intro o ho
    rw [l1 o (hdis o (List.mem_of_mem_tail ho))]
    exact hi.assigned c2 hc3 o ho)
  rw [hlv1] at q2
  have mem1 : ∀ x, x ∈ o1 ↔ x ∈ s.clusters c1 := by
    rcases q1 with ⟨h, -⟩ | ⟨h, -⟩ <;> simp [h]
  have mem2 : ∀ x, x ∈ o2 ↔ x ∈ s.clusters c2 := by
    rcases q2 with ⟨h, -⟩ | ⟨h, -⟩ <;> simp [h]
  have ne1 : o1 ≠ [] := by
    rcases q1 with ⟨h, -⟩ | ⟨h, -⟩ <;> simp [h, a1]
  have ne2 : o2 ≠ [] := by
    rcases q2 with ⟨h, -⟩ | ⟨h, -⟩ <;> simp [h, a2]
  have nd2 : o2.Nodup := by
    have := hi.nodup c2 hc3
    rcases q2 with ⟨h, -⟩ | ⟨h, -⟩ <;> rw [h] <;> simpa using this
  obtain ⟨b0, b1, e6, hb0, -, hhead, -⟩ := ends_ok ne2
  have hb0n : b0 < n := hi.bound c2 hc3 b0 ((mem2 b0).1 hb0)
  refine ⟨{ dist := d', clusters := upd (upd s.clusters c1 (o1 ++ o2)) c2 [], levels := upd lv2 b0 (some (D c1 c2)) },
    c1, c2, o1, o2, o1.tail.map lv1, o2.tail.map lv2, ?_, ⟨hc, a1, a2, hmin, hd', rfl, q1, q2, ?_, ?_, ?_⟩⟩
  · unfold mergeOnce
    rw [e1]
    simp only [Out.bind_ok, hc1, not_true_eq_false, if_false]
    unfold updateDist
    rw [e2, e3]
    simp only [Out.bind_ok]
    rw [e4]
    simp only [Out.bind_ok]
    rw [e5]
    simp only [Out.bind_ok]
    rw [e6]
    simp [writeLevel, hb0n]
  · obtain ⟨t2, rfl⟩ : ∃ t, o2 = b0 :: t := by
      cases o2 with
      | nil => simp at hhead
      | cons a t => simp at hhead; subst hhead; exact ⟨t, rfl⟩
    have hb0t : b0 ∉ t2 := (List.nodup_cons.1 nd2).1
    rw [List.tail_append_of_ne_nil ne1, List.map_append]
    congr 1
    · apply List.map_congr_left
      intro o ho
      have ho1 : o ∈ s.clusters c1 := (mem1 o).1 (List.mem_of_mem_tail ho)
      have ho2 : o ∉ s.clusters c2 := fun hc => hdis o hc ho1
      have : o ≠ b0 := by rintro rfl; exact ho2 ((mem2 _).1 hb0)
      simp only [upd, this, if_false]
      exact l2 o ho2
    · simp only [List.map_cons, List.tail_cons, upd, if_true]
      congr 1
      apply List.map_congr_left
      intro o ho
      have : o ≠ b0 := by rintro rfl; exact hb0t ho
      exact if_neg this
  · intro o h1 h2
    have : o ≠ b0 := by rintro rfl; exact h2 ((mem2 _).1 hb0)
    simp only [upd, this, if_false]
    rw [l2 o h2, l1 o h1]
  · rw [f1, f2]
    exact hclose

theorem tail_map_isSome {c : List Nat} {lv : Nat → Option α} :
    (∀ o ∈ c.tail, (lv o).isSome) ↔ ∀ g ∈ c.tail.map lv, g.isSome := by
  constructor
  · intro h g hg
    obtain ⟨o, ho, rfl⟩ := List.mem_map.1 hg
    exact h o ho
  · intro h o ho
    exact h _ (List.mem_map_of_mem ho)

theorem Merged.inv {m n k : Nat} {D0 D} {s s' : St α} {c1 c2 o1 o2 g1 g2} (h : Merged A m n D0 D s s' c1 c2 o1 o2 g1 g2) (hmn : m < n)
    (hi : Inv m n k s.clusters s.levels) : Inv m n (k + 1) s'.clusters s'.levels := by
  have hc1 : c1 < c2 := h.cell.1
  have hc2 : c1 < m := h.cell.2.1
  have hc3 : c2 < n := h.cell.2.2
  have mem1 : ∀ x, x ∈ o1 ↔ x ∈ s.clusters c1 := by
    rcases h.left with ⟨h, -⟩ | ⟨h, -⟩ <;> simp [h]
  have mem2 : ∀ x, x ∈ o2 ↔ x ∈ s.clusters c2 := by
    rcases h.right with ⟨h, -⟩ | ⟨h, -⟩ <;> simp [h]
  have nd1 : o1.Nodup := by
    have := hi.nodup c1 (by omega)
    rcases h.left with ⟨h, -⟩ | ⟨h, -⟩ <;> rw [h] <;> simpa using this
  have nd2 : o2.Nodup := by
    have := hi.nodup c2 hc3
    rcases h.right with ⟨h, -⟩ | ⟨h, -⟩ <;> rw [h] <;> simpa using this
  have ne1 : o1 ≠ [] := by
    rcases h.left with ⟨hh, -⟩ | ⟨hh, -⟩ <;> simp [hh, h.act1]
  have hcl : ∀ i, s'.clusters i = if i = c2 then [] else if i = c1 then o1 ++ o2 else s.clusters i := by
    intro i; rw [h.clusters]; rfl
  have hmem : ∀ i < n, ∀ x, x ∈ s'.clusters i → ∃ j, j < n ∧ x ∈ s.clusters j ∧ (j = i ∨ (i = c1 ∧ j = c2)) ∧ i ≠ c2 := by
    intro i hin x hx
    rw [hcl] at hx
    split at hx
    · simp at hx
    · split at hx
      · next h2 =>
        subst h2
        rcases List.mem_append.1 hx with hx | hx
        · exact ⟨i, hin, (mem1 x).1 hx, Or.inl rfl, by omega⟩
        · exact ⟨c2, hc3, (mem2 x).1 hx, Or.inr ⟨rfl, rfl⟩, by omega⟩
      · next h1 _ => exact ⟨i, hin, hx, Or.inl rfl, h1⟩
  refine ⟨?_, ?_, ?_, ?_, ?_, ?_, ?_⟩
  · intro i hin
    rw [hcl]
    split
    · simp
    · split
      · rw [List.nodup_append]
        refine ⟨nd1, nd2, ?_⟩
        intro a ha b hb hab
        subst hab
        have := hi.disj c1 (by omega) c2 hc3 a ((mem1 a).1 ha) ((mem2 a).1 hb)
        omega
      · exact hi.nodup i hin
  · intro i hin x hx
    obtain ⟨j, hj, hx, -⟩ := hmem i hin x hx
    exact hi.bound j hj x hx
  · intro i hin j hjn x hx hx'
    obtain ⟨a, ha, hxa, hai, hic⟩ := hmem i hin x hx
    obtain ⟨b, hb, hxb, hbj, hjc⟩ := hmem j hjn x hx'
    have := hi.disj a ha b hb x hxa hxb
    omega
  · intro x hx
    obtain ⟨i, hin, hxi⟩ := hi.cover x hx
    by_cases h1 : i = c1 ∨ i = c2
    · refine ⟨c1, by omega, ?_⟩
      rw [hcl, if_neg (by omega), if_pos rfl]
      rcases h1 with rfl | rfl
      · simp [(mem1 x).2 hxi]
      · simp [(mem2 x).2 hxi]
    · refine ⟨i, hin, ?_⟩
      rw [hcl, if_neg (by omega), if_neg (by omega)]
      exact hxi
  · rw [hcl, if_neg (by omega)]
    split
    · simp [ne1]
    · exact hi.zero
  · have e : ((List.range n).filter fun i => s'.clusters i ≠ []) =
        ((List.range n).filter fun i => s.clusters i ≠ []).erase c2 := by
      rw [(List.nodup_range.filter _).erase_eq_filter, List.filter_filter]
      apply List.filter_congr
      intro i _
      rw [hcl]
      by_cases h1 : i = c2
      · simp [h1]
      · by_cases h2 : i = c1
        · have := h.act1
          subst h2
          simp [h1, ne1, this]
        · simp [h1, h2]
    rw [e, List.length_erase_of_mem (by simp [hc3, h.act2])]
    have hpos : 0 < ((List.range n).filter fun i => s.clusters i ≠ []).length :=
      List.length_pos_of_mem (a := c2) (by simp [hc3, h.act2])
    have := hi.count
    omega
  · intro i hin
    rw [tail_map_isSome, hcl]
    split
    · simp
    · split
      · rw [h.gaps]
        have s1 := (tail_map_isSome (α := α)).1 (hi.assigned c1 (by omega))
        have s2 := (tail_map_isSome (α := α)).1 (hi.assigned c2 hc3)
        intro g hg
        rcases List.mem_append.1 hg with hg | hg
        · rcases h.left with ⟨-, hh⟩ | ⟨-, hh⟩
          · rw [hh] at hg; exact s1 g hg
          · rw [hh] at hg; exact s1 g (List.mem_reverse.1 hg)
        · rcases List.mem_cons.1 hg with rfl | hg
          · rfl
          · rcases h.right with ⟨-, hh⟩ | ⟨-, hh⟩
            · rw [hh] at hg; exact s2 g hg
            · rw [hh] at hg; exact s2 g (List.mem_reverse.1 hg)
      · next h1 h2 =>
        rw [← tail_map_isSome]
        intro o ho
        have ho' := List.mem_of_mem_tail ho
        rw [h.other o (fun hc => h2 (hi.disj i hin c1 (by omega) o ho' hc)) (fun hc => h1 (hi.disj i hin c2 hc3 o ho' hc))]
        exact hi.assigned i hin o ho

/-- As long as fewer than `n - 1` merges are done there is another cluster. -/
theorem Inv.another {m n k : Nat} {cl} {lv : Nat → Option α} (h : Inv m n k cl lv) (hk : k + 1 < n) :
    ∃ j, 0 < j ∧ j < n ∧ cl j ≠ [] := by
  by_contra hc
  have hall : ∀ i ∈ (List.range n).filter (fun i => cl i ≠ []), i = 0 := by
    intro i hi
    simp only [List.mem_filter, List.mem_range, ne_eq, decide_not, Bool.not_eq_true', decide_eq_false_iff_not] at hi
    by_contra h0
    exact hc ⟨i, by omega, hi.1, hi.2⟩
  have hnd : ((List.range n).filter (fun i => cl i ≠ [])).Nodup := List.nodup_range.filter _
  have hcnt := h.count
  match hl : (List.range n).filter (fun i => cl i ≠ []) with
  | [] => rw [hl] at hcnt; simp at hcnt; omega
  | [_] => rw [hl] at hcnt; simp at hcnt; omega
  | a :: b :: rest =>
    rw [hl] at hall hnd
    have h1 := hall a (by simp)
    have h2 := hall b (by simp)
    subst h1 h2
    simp at hnd

theorem Inv.init (m n : Nat) : Inv m n 0 (fun i => [i]) (fun _ => (none : Option α)) :=
  ⟨by simp, by intro i hi x hx; simp at hx; omega, by intro i _ j _ x h1 h2; simp at h1 h2; omega,
   fun x hx => ⟨x, hx, by simp⟩, by simp, by simp, by simp⟩

end Satyr.Cluster
