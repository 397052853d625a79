import Verif.Normalize.Pairing
/-!
# Which unknown functions are paired (C18, C113)

`Fits` (see `Pairing.lean`) says when two frames are candidates for a pair. Here it is proved exactly which candidates
become pairs: the first candidates in the order of the frames.
-/
namespace Satyr.Normalize
open Satyr.CStr

/-! ## Specification -/

/-- A set of pairs of positions chosen among the candidates `R`: no position is in two pairs, and a candidate is left out
only if one of its two positions is paired with an earlier one. -/
structure FirstFit (R : Nat → Nat → Prop) (P : List (Nat × Nat)) : Prop where
  candidate : ∀ i j, (i, j) ∈ P → R i j
  fst : ∀ i j j', (i, j) ∈ P → (i, j') ∈ P → j = j'
  snd : ∀ i i' j, (i, j) ∈ P → (i', j) ∈ P → i = i'
  maximal : ∀ i j, R i j → (i, j) ∈ P ∨ (∃ j' < j, (i, j') ∈ P) ∨ ∃ i' < i, (i', j) ∈ P

/-- There is at most one such set. -/
theorem FirstFit.unique {R : Nat → Nat → Prop} {P Q : List (Nat × Nat)} (hP : FirstFit R P) (hQ : FirstFit R Q) :
    ∀ i j, (i, j) ∈ P ↔ (i, j) ∈ Q := by
  have key : ∀ n i j, i + j = n → ((i, j) ∈ P ↔ (i, j) ∈ Q) := by
    intro n
    induction n using Nat.strongRecOn with
    | ind n ih =>
      intro i j hn
      have one : ∀ {A B : List (Nat × Nat)}, FirstFit R A → FirstFit R B →
          (∀ m < n, ∀ x y, x + y = m → ((x, y) ∈ A ↔ (x, y) ∈ B)) → (i, j) ∈ A → (i, j) ∈ B := by
        intro A B hA hB ih h
        rcases hB.maximal i j (hA.candidate i j h) with h1 | ⟨j', hj, h1⟩ | ⟨i', hi, h1⟩
        · exact h1
        · have := hA.fst i j j' h ((ih (i + j') (by omega) i j' rfl).2 h1); omega
        · have := hA.snd i i' j h ((ih (i' + j) (by omega) i' j rfl).2 h1); omega
      exact ⟨one hP hQ ih, one hQ hP fun m hm x y h => (ih m hm x y h).symm⟩
  exact fun i j => key _ i j rfl

/-- Exchanging the roles of the threads. -/
theorem FirstFit.swap {R : Nat → Nat → Prop} {P : List (Nat × Nat)} (h : FirstFit R P) :
    FirstFit (fun j i => R i j) (P.map Prod.swap) := by
  have mem : ∀ i j, (j, i) ∈ P.map Prod.swap ↔ (i, j) ∈ P := by
    intro i j
    constructor
    · intro hm
      obtain ⟨⟨a, b⟩, hp, e⟩ := List.mem_map.1 hm
      cases e; exact hp
    · intro hp; exact List.mem_map.2 ⟨(i, j), hp, rfl⟩
  refine ⟨fun j i hm => h.candidate i j ((mem i j).1 hm), fun j i i' h1 h2 => h.snd i i' j ((mem _ _).1 h1) ((mem _ _).1 h2),
    fun j j' i h1 h2 => h.fst i j j' ((mem _ _).1 h1) ((mem _ _).1 h2), fun j i hr => ?_⟩
  rcases h.maximal i j hr with h1 | ⟨j', hj, h1⟩ | ⟨i', hi, h1⟩
  · exact Or.inl ((mem _ _).2 h1)
  · exact Or.inr (Or.inr ⟨j', hj, (mem _ _).2 h1⟩)
  · exact Or.inr (Or.inl ⟨i', hi, (mem _ _).2 h1⟩)

/-! ## The candidates in the model -/

theorem LibsAgree.symm {f1 f2 : List GdbFrame} {i j : Nat} (h : LibsAgree f1 f2 i j) : LibsAgree f2 f1 j i :=
  fun b a y x hb ha hy hx => (h a b x y ha hb hx hy).symm

theorem Fits.symm {f1 f2 : List GdbFrame} {i j : Nat} (h : Fits f1 f2 i j) : Fits f2 f1 j i := by
  obtain ⟨u1, u2, ⟨n1, n2, n3⟩, l1, l2, l3⟩ := h
  refine ⟨u2, u1, ⟨?_, n2.symm, n2 ▸ n3⟩, l1.symm, l2.symm, l3.symm⟩
  rcases n1 with ⟨rfl, rfl⟩ | ⟨hi, hj, p1, p2⟩
  · exact Or.inl ⟨rfl, rfl⟩
  · exact Or.inr ⟨hj, hi, p1.symm, p1 ▸ p2⟩

theorem fits_comm {f1 f2 : List GdbFrame} {i j : Nat} : Fits f1 f2 i j ↔ Fits f2 f1 j i := ⟨Fits.symm, Fits.symm⟩

theorem libsAgree_of {f1 f2 : List GdbFrame} {i j : Nat} {a b : GdbFrame} (ha : f1[i]? = some a) (hb : f2[j]? = some b)
    (h : libsDiffer a b = false) : LibsAgree f1 f2 i j := by
  intro a' b' x y h1 h2 h3 h4
  rw [ha] at h1; cases h1
  rw [hb] at h2; cases h2
  rw [Bool.eq_false_iff, ne_eq, libsDiffer_iff] at h
  by_contra hne
  exact h ⟨x, y, h3, h4, hne⟩

theorem nextSimilar_libs {f1 f2 : List GdbFrame} {i j : Nat} (h : nextSimilar f1[i]? f2[j]? = true) :
    LibsAgree f1 f2 i j := by
  cases h1 : f1[i]? with
  | none => intro a b x y ha; rw [h1] at ha; cases ha
  | some a =>
    cases h2 : f2[j]? with
    | none => intro a b x y _ hb; rw [h2] at hb; cases hb
    | some b =>
      rw [h1, h2] at h
      simp only [nextSimilar] at h
      split at h
      · simp at h
      · next hn =>
        rw [not_or, not_or] at hn
        exact libsAgree_of h1 h2 (by simpa using hn.2.2)

/-- The condition on the first frames is `Fits`. -/
theorem firstPair_iff (f1 f2 : List GdbFrame) : firstPair f1 f2 = true ↔ Fits f1 f2 0 0 := by
  constructor
  · intro h
    obtain ⟨a, b, h1, h2, u1, u2, hl, hn⟩ := firstPair_true h
    have hs : nextSimilar f1[1]? f2[1]? = true := by
      unfold firstPair at h
      rw [h1, h2] at h
      simp only [Bool.and_eq_true] at h
      exact h.2
    rw [unknown_iff] at u1 u2
    have hl' := libsAgree_of h1 h2 hl
    exact ⟨by unfold nameAt; rw [h1]; simp [u1], by unfold nameAt; rw [h2]; simp [u2], hn, hl', nextSimilar_libs hs, hl'⟩
  · rintro ⟨u1, u2, ⟨n1, n2, n3⟩, l1, l2, l3⟩
    obtain ⟨a, ha, ua⟩ := nameAt_some u1
    obtain ⟨b, hb, ub⟩ := nameAt_some u2
    have hs := nextSimilar_true n2 n3 l2
    unfold firstPair
    rw [ha, hb]
    simp only [(unknown_iff a).2 ua, (unknown_iff b).2 ub, libsDiffer_false l1 ha hb]
    simpa using hs

/-- The condition on later frames is `Fits`. -/
theorem laterPair_iff {f1 f2 : List GdbFrame} {i j : Nat} (hi : 0 < i) (hj : 0 < j) :
    (laterPair f1 f2 i j = true ∧ nameAt f1 i = some (some c!"??")) ↔ Fits f1 f2 i j := by
  constructor
  · rintro ⟨h, hu⟩
    obtain ⟨a, b, h1, h2, u2, hl, hn⟩ := laterPair_true hi hj h
    rw [unknown_iff] at u2
    refine ⟨hu, by unfold nameAt; rw [h2]; simp [u2], hn, libsAgree_of h1 h2 hl, ?_, ?_⟩ <;>
    · unfold laterPair at h
      rw [h1, h2] at h
      cases h3 : f1[i - 1]? with
      | none => rw [h3] at h; simp at h
      | some pa =>
        cases h4 : f2[j - 1]? with
        | none => rw [h3, h4] at h; simp at h
        | some pb =>
          rw [h3, h4] at h
          simp only [Bool.and_eq_true, Bool.not_eq_true'] at h
          first
            | exact nextSimilar_libs h.1.1.2
            | exact libsAgree_of h3 h4 h.2
  · rintro ⟨u1, u2, ⟨n1, n2, n3⟩, l1, l2, l3⟩
    refine ⟨?_, u1⟩
    obtain ⟨a, ha, ua⟩ := nameAt_some u1
    obtain ⟨b, hb, ub⟩ := nameAt_some u2
    have hs := nextSimilar_true n2 n3 l2
    rcases n1 with ⟨rfl, rfl⟩ | ⟨_, _, p1, p2⟩
    · omega
    · have hlt := (List.getElem?_eq_some_iff.1 hb).1
      have hlti := (List.getElem?_eq_some_iff.1 ha).1
      have e1 : f1[i - 1]? = some (f1[i - 1]'(by omega)) := List.getElem?_eq_getElem _
      have e2 : f2[j - 1]? = some (f2[j - 1]'(by omega)) := List.getElem?_eq_getElem _
      generalize f1[i - 1]'(by omega) = pa at e1
      generalize f2[j - 1]'(by omega) = pb at e2
      unfold nameAt at p1 p2
      rw [e1, e2] at p1
      rw [e1] at p2
      simp only [Option.map_some, Option.some.injEq] at p1
      simp only [Option.map_some, ne_eq, Option.some.injEq] at p2
      have upb : unknown pb = false := by
        rw [Bool.eq_false_iff, ne_eq, unknown_iff, ← p1]; exact p2
      unfold laterPair
      rw [ha, hb, e1, e2]
      simp only [(unknown_iff b).2 ub, libsDiffer_false l1 ha hb, upb, hs, libsDiffer_false l3 e1 e2, strcmp0_eq_zero.2 p1]
      rfl

/-! ## Pairing does not create or destroy candidates -/

theorem Fits.congr {f1 f2 g1 g2 : List GdbFrame} {i j : Nat} (h : Fits f1 f2 i j)
    (a0 : g1[i]? = f1[i]?) (a1 : g1[i + 1]? = f1[i + 1]?) (a2 : g1[i - 1]? = f1[i - 1]?)
    (b0 : g2[j]? = f2[j]?) (b1 : g2[j + 1]? = f2[j + 1]?) (b2 : g2[j - 1]? = f2[j - 1]?) : Fits g1 g2 i j := by
  unfold Fits Neighbours LibsAgree nameAt at *
  rw [a0, a1, a2, b0, b1, b2]
  exact h

/-- A candidate's neighbours are not unknown. -/
theorem Fits.next {f1 f2 : List GdbFrame} {i j : Nat} (h : Fits f1 f2 i j) :
    nameAt f1 (i + 1) ≠ some (some c!"??") ∧ nameAt f2 (j + 1) ≠ some (some c!"??") :=
  ⟨h.2.2.1.2.2, h.2.2.1.2.1 ▸ h.2.2.1.2.2⟩

theorem Fits.prev {f1 f2 : List GdbFrame} {i j : Nat} (h : Fits f1 f2 i j) :
    (0 < i → nameAt f1 (i - 1) ≠ some (some c!"??")) ∧ (0 < j → nameAt f2 (j - 1) ≠ some (some c!"??")) := by
  rcases h.2.2.1.1 with ⟨rfl, rfl⟩ | ⟨_, _, p1, p2⟩
  · exact ⟨fun h => absurd h (by omega), fun h => absurd h (by omega)⟩
  · exact ⟨fun _ => p2, fun _ => p1 ▸ p2⟩

theorem Paired.fst_unknown {o1 o2 r1 r2 : List GdbFrame} {pairs : List (Nat × Nat)} (h : Paired o1 o2 pairs r1 r2)
    {i : Nat} (hi : i ∈ pairs.map Prod.fst) : nameAt o1 i = some (some c!"??") ∧ nameAt r1 i ≠ some (some c!"??") := by
  obtain ⟨p, hp, rfl⟩ := List.mem_map.1 hi
  obtain ⟨k, hk⟩ := List.mem_iff_getElem?.1 hp
  obtain ⟨a, b, q1, q2, q3, q4, q5, q6, q7, q8⟩ := h.renamed k p hk
  unfold nameAt
  rw [q1, q6]
  simp only [Option.map_some, q3, true_and, ne_eq, Option.some.injEq]
  exact unknownName_ne k

theorem Paired.snd_unknown {o1 o2 r1 r2 : List GdbFrame} {pairs : List (Nat × Nat)} (h : Paired o1 o2 pairs r1 r2)
    {j : Nat} (hj : j ∈ pairs.map Prod.snd) : nameAt o2 j = some (some c!"??") ∧ nameAt r2 j ≠ some (some c!"??") := by
  obtain ⟨p, hp, rfl⟩ := List.mem_map.1 hj
  obtain ⟨k, hk⟩ := List.mem_iff_getElem?.1 hp
  obtain ⟨a, b, q1, q2, q3, q4, q5, q6, q7, q8⟩ := h.renamed k p hk
  unfold nameAt
  rw [q2, q7]
  simp only [Option.map_some, q4, true_and, ne_eq, Option.some.injEq]
  exact unknownName_ne k

/-- The frames that fit after some pairs have been renamed are those that did before, without the renamed ones. -/
theorem Paired.fits_iff {o1 o2 r1 r2 : List GdbFrame} {pairs : List (Nat × Nat)} (h : Paired o1 o2 pairs r1 r2)
    (hf : ∀ i j, (i, j) ∈ pairs → Fits o1 o2 i j) (i j : Nat) :
    Fits r1 r2 i j ↔ Fits o1 o2 i j ∧ i ∉ pairs.map Prod.fst ∧ j ∉ pairs.map Prod.snd := by
  have far1 : nameAt o1 i = some (some c!"??") → ∀ x, (x = i + 1 ∨ (x + 1 = i)) → x ∉ pairs.map Prod.fst := by
    intro hu x hx hm
    obtain ⟨⟨a, b⟩, hp, rfl⟩ := List.mem_map.1 hm
    have hfit := hf a b hp
    rcases hx with hx | hx
    · have := hfit.prev.1 (by simp only at hx; omega)
      simp only at hx; subst hx
      exact this (by simpa using hu)
    · simp only at hx; subst hx
      exact hfit.next.1 hu
  have far2 : nameAt o2 j = some (some c!"??") → ∀ x, (x = j + 1 ∨ (x + 1 = j)) → x ∉ pairs.map Prod.snd := by
    intro hu x hx hm
    obtain ⟨⟨a, b⟩, hp, rfl⟩ := List.mem_map.1 hm
    have hfit := hf a b hp
    rcases hx with hx | hx
    · have := hfit.prev.2 (by simp only at hx; omega)
      simp only at hx; subst hx
      exact this (by simpa using hu)
    · simp only at hx; subst hx
      exact hfit.next.2 hu
  constructor
  · intro hr
    have hi : i ∉ pairs.map Prod.fst := fun hm => (h.fst_unknown hm).2 hr.1
    have hj : j ∉ pairs.map Prod.snd := fun hm => (h.snd_unknown hm).2 hr.2.1
    have e1 := h.other1 i hi
    have e2 := h.other2 j hj
    have u1 : nameAt o1 i = some (some c!"??") := by have := hr.1; unfold nameAt at this ⊢; rw [← e1]; exact this
    have u2 : nameAt o2 j = some (some c!"??") := by have := hr.2.1; unfold nameAt at this ⊢; rw [← e2]; exact this
    refine ⟨hr.congr e1.symm (h.other1 _ (far1 u1 _ (Or.inl rfl))).symm ?_ e2.symm
      (h.other2 _ (far2 u2 _ (Or.inl rfl))).symm ?_, hi, hj⟩
    · rcases Nat.eq_zero_or_pos i with rfl | hpos
      · exact e1.symm
      · exact (h.other1 _ (far1 u1 _ (Or.inr (by omega)))).symm
    · rcases Nat.eq_zero_or_pos j with rfl | hpos
      · exact e2.symm
      · exact (h.other2 _ (far2 u2 _ (Or.inr (by omega)))).symm
  · rintro ⟨ho, hi, hj⟩
    have e1 := h.other1 i hi
    have e2 := h.other2 j hj
    refine ho.congr e1 (h.other1 _ (far1 ho.1 _ (Or.inl rfl))) ?_ e2 (h.other2 _ (far2 ho.2.1 _ (Or.inl rfl))) ?_
    · rcases Nat.eq_zero_or_pos i with rfl | hpos
      · exact e1
      · exact h.other1 _ (far1 ho.1 _ (Or.inr (by omega)))
    · rcases Nat.eq_zero_or_pos j with rfl | hpos
      · exact e2
      · exact h.other2 _ (far2 ho.2.1 _ (Or.inr (by omega)))

/-! ## The loops choose the first candidates -/

/-- The inner loop renames the first frame that fits. -/
theorem innerLoop_first (s : PairState) (i : Nat) : ∀ (fuel j : Nat),
    (innerLoop s i j fuel = s ∧ ∀ x, j ≤ x → x < j + fuel → laterPair s.f1 s.f2 i x = false) ∨
    ∃ x, j ≤ x ∧ laterPair s.f1 s.f2 i x = true ∧ innerLoop s i j fuel = pairUp s i x ∧
      ∀ y, j ≤ y → y < x → laterPair s.f1 s.f2 i y = false := by
  intro fuel
  induction fuel with
  | zero => intro j; left; exact ⟨rfl, fun x h1 h2 => by omega⟩
  | succ fuel ih =>
    intro j
    unfold innerLoop
    by_cases hp : laterPair s.f1 s.f2 i j = true
    · rw [if_pos hp]; right; exact ⟨j, le_refl _, hp, rfl, fun y h1 h2 => by omega⟩
    · rw [if_neg hp]
      rcases ih (j + 1) with ⟨h1, h2⟩ | ⟨x, h1, h2, h3, h4⟩
      · left
        refine ⟨h1, fun x hx1 hx2 => ?_⟩
        rcases Nat.eq_or_lt_of_le hx1 with rfl | hx1
        · simpa using hp
        · exact h2 x hx1 (by omega)
      · right
        refine ⟨x, by omega, h2, h3, fun y hy1 hy2 => ?_⟩
        rcases Nat.eq_or_lt_of_le hy1 with rfl | hy1
        · simpa using hp
        · exact h4 y hy1 hy2

/-- What holds when the outer loop reaches frame `i`. -/
structure Reached (o1 o2 : List GdbFrame) (i : Nat) (pairs : List (Nat × Nat)) (s : PairState) : Prop where
  paired : Paired o1 o2 pairs s.f1 s.f2
  count : s.k = pairs.length
  fits : ∀ x y, (x, y) ∈ pairs → Fits o1 o2 x y
  before : ∀ x y, (x, y) ∈ pairs → x < i
  sorted : (pairs.map Prod.fst).Pairwise (· < ·)
  first : ∀ x y, x < i → Fits o1 o2 x y → (x, y) ∈ pairs ∨ (∃ y' < y, (x, y') ∈ pairs) ∨ ∃ x' < x, (x', y) ∈ pairs

theorem Reached.pair {o1 o2 : List GdbFrame} {i j : Nat} {pairs : List (Nat × Nat)} {s : PairState}
    (h : Reached o1 o2 i pairs s) (hf : Fits s.f1 s.f2 i j) (hmin : ∀ y < j, ¬ Fits s.f1 s.f2 i y) :
    Reached o1 o2 (i + 1) (pairs ++ [(i, j)]) (pairUp s i j) := by
  obtain ⟨a, ha, ua⟩ := nameAt_some hf.1
  obtain ⟨b, hb, ub⟩ := nameAt_some hf.2.1
  have hfo := ((h.paired.fits_iff h.fits i j).1 hf).1
  refine ⟨h.paired.pairUp h.count ha hb ((unknown_iff a).2 ua) ((unknown_iff b).2 ub)
    (libsDiffer_false hf.2.2.2.1 ha hb) hf.2.2.1, by simp [pairUp, h.count], ?_, ?_, ?_, ?_⟩
  · intro x y hm
    rcases List.mem_append.1 hm with hm | hm
    · exact h.fits x y hm
    · simp only [List.mem_singleton, Prod.mk.injEq] at hm; rw [hm.1, hm.2]; exact hfo
  · intro x y hm
    rcases List.mem_append.1 hm with hm | hm
    · have := h.before x y hm; omega
    · simp only [List.mem_singleton, Prod.mk.injEq] at hm; omega
  · rw [List.map_append, List.pairwise_append]
    refine ⟨h.sorted, by simp, ?_⟩
    intro x hx y hy
    simp only [List.map_cons, List.map_nil, List.mem_singleton] at hy
    obtain ⟨⟨x', y'⟩, hp, rfl⟩ := List.mem_map.1 hx
    have := h.before x' y' hp
    omega
  · intro x y hx hxy
    rcases Nat.lt_or_ge x i with hlt | hge
    · rcases h.first x y hlt hxy with h1 | ⟨y', hy, h1⟩ | ⟨x', hx, h1⟩
      · exact Or.inl (List.mem_append_left _ h1)
      · exact Or.inr (Or.inl ⟨y', hy, List.mem_append_left _ h1⟩)
      · exact Or.inr (Or.inr ⟨x', hx, List.mem_append_left _ h1⟩)
    · have : x = i := by omega
      subst this
      rcases Nat.lt_trichotomy y j with hlt | rfl | hgt
      · right; right
        have hno := hmin y hlt
        rw [h.paired.fits_iff h.fits] at hno
        have hx' : x ∉ pairs.map Prod.fst := by
          intro hm
          obtain ⟨⟨x', y'⟩, hp, rfl⟩ := List.mem_map.1 hm
          exact absurd (h.before x' y' hp) (by simp)
        have hy : y ∈ pairs.map Prod.snd := by
          by_contra hy
          exact hno ⟨hxy, hx', hy⟩
        obtain ⟨⟨x', y'⟩, hp, rfl⟩ := List.mem_map.1 hy
        exact ⟨x', h.before x' y' hp, List.mem_append_left _ hp⟩
      · exact Or.inl (by simp)
      · exact Or.inr (Or.inl ⟨j, hgt, by simp⟩)

theorem Reached.skip {o1 o2 : List GdbFrame} {i : Nat} {pairs : List (Nat × Nat)} {s : PairState}
    (h : Reached o1 o2 i pairs s) (hno : ∀ y, ¬ Fits s.f1 s.f2 i y) : Reached o1 o2 (i + 1) pairs s := by
  refine ⟨h.paired, h.count, h.fits, fun x y hm => by have := h.before x y hm; omega, h.sorted, ?_⟩
  intro x y hx hxy
  rcases Nat.lt_or_ge x i with hlt | hge
  · exact h.first x y hlt hxy
  · have : x = i := by omega
    subst this
    right; right
    have hno := hno y
    rw [h.paired.fits_iff h.fits] at hno
    have hx' : x ∉ pairs.map Prod.fst := by
      intro hm
      obtain ⟨⟨x', y'⟩, hp, rfl⟩ := List.mem_map.1 hm
      exact absurd (h.before x' y' hp) (by simp)
    have hy : y ∈ pairs.map Prod.snd := by
      by_contra hy
      exact hno ⟨hxy, hx', hy⟩
    obtain ⟨⟨x', y'⟩, hp, rfl⟩ := List.mem_map.1 hy
    exact ⟨x', h.before x' y' hp, hp⟩

theorem outerLoop_reached {o1 o2 : List GdbFrame} : ∀ (fuel i : Nat) (s : PairState) (pairs : List (Nat × Nat)), 0 < i →
    Reached o1 o2 i pairs s →
    ∃ all, Reached o1 o2 (i + fuel) all (outerLoop s i fuel) := by
  intro fuel
  induction fuel with
  | zero => intro i s pairs _ h; exact ⟨pairs, by simpa [outerLoop] using h⟩
  | succ fuel ih =>
    intro i s pairs hi h
    have e : i + (fuel + 1) = i + 1 + fuel := by omega
    rw [e]
    have hzero : ¬ Fits s.f1 s.f2 i 0 := by
      intro hf
      rcases hf.2.2.1.1 with ⟨rfl, _⟩ | ⟨_, hj, _⟩ <;> omega
    have hpos : ∀ {y}, Fits s.f1 s.f2 i y → 0 < y := by
      intro y hf
      rcases Nat.eq_zero_or_pos y with rfl | hy
      · exact absurd hf hzero
      · exact hy
    cases ha : s.f1[i]? with
    | none =>
      have hno : ∀ y, ¬ Fits s.f1 s.f2 i y := by
        intro y hf
        obtain ⟨a, ha', _⟩ := nameAt_some hf.1
        rw [ha] at ha'; cases ha'
      rw [outerLoop, ha]
      exact ih (i + 1) s pairs (by omega) (h.skip hno)
    | some a =>
      by_cases hu : unknown a = true
      · have hun : nameAt s.f1 i = some (some c!"??") := by unfold nameAt; rw [ha]; simp [(unknown_iff a).1 hu]
        rcases innerLoop_first s i (s.f2.length - 1) 1 with ⟨h1, h2⟩ | ⟨x, h1, h2, h3, h4⟩
        · have hno : ∀ y, ¬ Fits s.f1 s.f2 i y := by
            intro y hf
            have hy := hpos hf
            obtain ⟨b, hb, _⟩ := nameAt_some hf.2.1
            have hlt := (List.getElem?_eq_some_iff.1 hb).1
            have := ((laterPair_iff hi hy).2 hf).1
            rw [h2 y hy (by omega)] at this; cases this
          rw [outerLoop, ha]; simp only [hu, if_true, h1]
          exact ih (i + 1) s pairs (by omega) (h.skip hno)
        · have hf : Fits s.f1 s.f2 i x := (laterPair_iff hi h1).1 ⟨h2, hun⟩
          have hmin : ∀ y < x, ¬ Fits s.f1 s.f2 i y := by
            intro y hy hf
            have := ((laterPair_iff hi (hpos hf)).2 hf).1
            rw [h4 y (hpos hf) hy] at this; cases this
          rw [outerLoop, ha]; simp only [hu, if_true, h3]
          exact ih (i + 1) _ _ (by omega) (h.pair hf hmin)
      · have hno : ∀ y, ¬ Fits s.f1 s.f2 i y := by
          intro y hf
          obtain ⟨a', ha', hn⟩ := nameAt_some hf.1
          rw [ha] at ha'; cases ha'
          exact hu ((unknown_iff a).2 hn)
        rw [outerLoop, ha]; simp only [hu, Bool.false_eq_true, if_false]
        exact ih (i + 1) s pairs (by omega) (h.skip hno)

theorem Reached.start (o1 o2 : List GdbFrame) : Reached o1 o2 0 [] ⟨o1, o2, 0⟩ :=
  ⟨Paired.nil o1 o2, rfl, by simp, by simp, by simp, fun x y h => by omega⟩

/-- **C18.** Exactly which unknown functions are paired. Two frames are candidates (`Fits`) if both are called `??` and
their neighbours have equal known names and compatible libraries in the threads *as given*. The renamed pairs are the
first candidates in the order of the frames: a candidate is left out only if one of its frames is already paired with an
earlier frame of the other thread. The pairs are numbered in the order of the frames of the first thread. -/
theorem C18_first_fit (f1 f2 : List GdbFrame) :
    ∃ pairs, Paired f1 f2 pairs (pairUnknown f1 f2).1 (pairUnknown f1 f2).2 ∧ FirstFit (Fits f1 f2) pairs ∧
      (pairs.map Prod.fst).Pairwise (· < ·) := by
  have main : ∃ pairs n s, (s.f1, s.f2) = pairUnknown f1 f2 ∧ f1.length ≤ n ∧ Reached f1 f2 n pairs s := by
    unfold pairUnknown
    by_cases he : f1 = [] ∨ f2 = []
    · rw [if_pos he]
      have hno : ∀ x y, ¬ Fits f1 f2 x y := by
        intro x y hf
        obtain ⟨a, ha, _⟩ := nameAt_some hf.1
        obtain ⟨b, hb, _⟩ := nameAt_some hf.2.1
        rcases he with rfl | rfl
        · simp at ha
        · simp at hb
      exact ⟨[], f1.length, ⟨f1, f2, 0⟩, rfl, le_refl _, Paired.nil f1 f2, rfl, by simp, by simp, by simp,
        fun x y _ h => absurd h (hno x y)⟩
    · rw [if_neg he]
      rw [not_or] at he
      have hl1 : 0 < f1.length := List.length_pos_iff.2 he.1
      have hz : ∀ y, Fits f1 f2 0 y → y = 0 := by
        intro y hf
        rcases hf.2.2.1.1 with ⟨_, rfl⟩ | ⟨h, _⟩
        · rfl
        · omega
      by_cases hf : firstPair f1 f2 = true
      · simp only [hf, if_true]
        obtain ⟨all, h⟩ := outerLoop_reached (f1.length - 1) 1 _ _ (by omega)
          ((Reached.start f1 f2).pair ((firstPair_iff f1 f2).1 hf) (fun y hy => by omega))
        exact ⟨all, _, _, rfl, by omega, h⟩
      · simp only [hf]
        have hno : ∀ y, ¬ Fits f1 f2 0 y := by
          intro y h
          have := hz y h; subst this
          exact hf ((firstPair_iff f1 f2).2 h)
        obtain ⟨all, h⟩ := outerLoop_reached (f1.length - 1) 1 _ _ (by omega) ((Reached.start f1 f2).skip hno)
        exact ⟨all, _, _, rfl, by omega, h⟩
  obtain ⟨pairs, n, s, hs, hn, h⟩ := main
  rw [← hs]
  refine ⟨pairs, h.paired, ⟨h.fits, ?_, ?_, ?_⟩, h.sorted⟩
  · intro i j j' h1 h2
    have := List.inj_on_of_nodup_map h.paired.nodup1 h1 h2 rfl
    exact congrArg Prod.snd this
  · intro i i' j h1 h2
    have := List.inj_on_of_nodup_map h.paired.nodup2 h1 h2 rfl
    exact congrArg Prod.fst this
  · intro i j hf
    obtain ⟨a, ha, _⟩ := nameAt_some hf.1
    have hlt := (List.getElem?_eq_some_iff.1 ha).1
    exact h.first i j (by omega) hf

/-- C18: the result is determined by that description: other threads paired by the same rule are the same. -/
theorem C18_determined {f1 f2 r1 r2 : List GdbFrame} {pairs : List (Nat × Nat)} (hp : Paired f1 f2 pairs r1 r2)
    (hf : FirstFit (Fits f1 f2) pairs) (hs : (pairs.map Prod.fst).Pairwise (· < ·)) :
    (r1, r2) = pairUnknown f1 f2 := by
  obtain ⟨pairs', hp', hf', hs'⟩ := C18_first_fit f1 f2
  have hmem := hf.unique hf'
  have hnd : ∀ {l : List (Nat × Nat)}, (l.map Prod.fst).Pairwise (· < ·) → l.Pairwise (fun x y => x.1 < y.1) := by
    intro l h; exact List.pairwise_map.1 h
  have he : pairs = pairs' := by
    apply List.Perm.eq_of_pairwise (le := fun x y : Nat × Nat => x.1 < y.1)
    · intro a b _ _ h1 h2; exact absurd h1 (by omega)
    · exact hnd hs
    · exact hnd hs'
    · rw [List.perm_ext_iff_of_nodup]
      · rintro ⟨a, b⟩; exact hmem a b
      · exact List.Nodup.of_map _ hp.nodup1
      · exact List.Nodup.of_map _ hp'.nodup1
  subst he
  have e1 : r1 = (pairUnknown f1 f2).1 := by
    apply List.ext_getElem?
    intro i
    by_cases hi : i ∈ pairs.map Prod.fst
    · obtain ⟨p, hpm, rfl⟩ := List.mem_map.1 hi
      obtain ⟨k, hk⟩ := List.mem_iff_getElem?.1 hpm
      obtain ⟨a, b, q1, _, _, _, _, q6, _⟩ := hp.renamed k p hk
      obtain ⟨a', b', q1', _, _, _, _, q6', _⟩ := hp'.renamed k p hk
      rw [q1] at q1'; cases q1'
      rw [q6, q6']
    · rw [hp.other1 i hi, hp'.other1 i hi]
  have e2 : r2 = (pairUnknown f1 f2).2 := by
    apply List.ext_getElem?
    intro i
    by_cases hi : i ∈ pairs.map Prod.snd
    · obtain ⟨p, hpm, rfl⟩ := List.mem_map.1 hi
      obtain ⟨k, hk⟩ := List.mem_iff_getElem?.1 hpm
      obtain ⟨a, b, _, q1, _, _, _, _, q7, _⟩ := hp.renamed k p hk
      obtain ⟨a', b', _, q1', _, _, _, _, q7', _⟩ := hp'.renamed k p hk
      rw [q1] at q1'; cases q1'
      rw [q7, q7']
    · rw [hp.other2 i hi, hp'.other2 i hi]
  rw [e1, e2]

/-- Non-vacuity: the second `??` of the first thread could be paired with the only one of the second thread, but the
first one is. -/
example : pairUnknown
    [named c!"f", named c!"??", named c!"g", named c!"f", named c!"??", named c!"g"] [named c!"f", named c!"??", named c!"g"] =
    ([named c!"f", named c!"__unknown_function_0", named c!"g", named c!"f", named c!"??", named c!"g"],
     [named c!"f", named c!"__unknown_function_0", named c!"g"]) := by decide +kernel

end Satyr.Normalize
