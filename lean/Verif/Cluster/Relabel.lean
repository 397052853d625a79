import Verif.Cluster.Order
/-!
# The order in which the objects are given (C138)
-/
namespace Satyr.Cluster
open Satyr.Distances
variable {α : Type}

/-! ## Specification: joining the nearest clusters, without numbers of clusters -/

/-- Clusters in the course of clustering: sequences of objects with the levels between neighbours, each in both directions, and the
distances of clusters. -/
structure Stage (α : Type) where
  seqs : List Nat → List α → Prop
  dist : List Nat → List Nat → α

/-- No object is in both clusters. -/
def Apart (x y : List Nat) : Prop := ∀ o ∈ x, o ∉ y

instance (x y : List Nat) : Decidable (Apart x y) := by unfold Apart; infer_instance

/-- The same sequence, perhaps read in the other direction. -/
def Same (x y : List Nat) : Prop := x = y ∨ x = y.reverse

/-- Two clusters have no larger distance than any other two. -/
def Nearest [LE α] (S : Stage α) (a b : List Nat) : Prop :=
  ∀ x lx y ly, S.seqs x lx → S.seqs y ly → Apart x y → S.dist a b ≤ S.dist x y

/-- `T` is `S` after `b` has been put after `a`. -/
structure Put (avg : α → Nat → α → Nat → α) (S : Stage α) (a : List Nat) (la : List α) (b : List Nat) (lb : List α) (T : Stage α) :
    Prop where
  seqs : ∀ o g, T.seqs o g ↔ (o = a ++ b ∧ g = la ++ S.dist a b :: lb) ∨
    (o = (a ++ b).reverse ∧ g = (la ++ S.dist a b :: lb).reverse) ∨ (S.seqs o g ∧ Apart o a ∧ Apart o b)
  old : ∀ x lx y ly, S.seqs x lx → S.seqs y ly → Apart x a → Apart x b → Apart y a → Apart y b → T.dist x y = S.dist x y
  new : ∀ x lx c, S.seqs x lx → Apart x a → Apart x b → Same c (a ++ b) →
    T.dist x c = avg (S.dist x a) a.length (S.dist x b) b.length ∧ T.dist c x = avg (S.dist x a) a.length (S.dist x b) b.length

/-- `Greedy avg D n k S`: the clusters `S` arise from `n` objects when two nearest clusters are joined at their nearest ends, `k`
times. -/
inductive Greedy [LE α] (avg : α → Nat → α → Nat → α) (D : Nat → Nat → α) (n : Nat) : Nat → Stage α → Prop
  | start {S : Stage α} : (∀ o g, S.seqs o g ↔ ∃ i < n, o = [i] ∧ g = []) →
      (∀ i j, i < n → j < n → i ≠ j → S.dist [i] [j] = D i j) → Greedy avg D n 0 S
  | join {k : Nat} {S T : Stage α} {a b : List Nat} {la lb : List α} : Greedy avg D n k S → S.seqs a la → S.seqs b lb → Apart a b →
      Nearest S a b → (∀ p ∈ a.getLast?, ∀ q ∈ b.head?, ∀ x ∈ endsOf a, ∀ y ∈ endsOf b, D p q ≤ D x y) →
      Put avg S a la b lb T → Greedy avg D n (k + 1) T

/-- No two pairs of objects have the same distance. -/
def Distinct (D : Nat → Nat → α) (n : Nat) : Prop :=
  ∀ i j k l, i < n → j < n → k < n → l < n → i ≠ j → k ≠ l → D i j = D k l → (i = k ∧ j = l) ∨ (i = l ∧ j = k)

/-- At no step are there two pairs of nearest clusters. -/
def NoTies [LE α] (avg : α → Nat → α → Nat → α) (D : Nat → Nat → α) (n : Nat) : Prop :=
  ∀ k S, Greedy avg D n k S → ∀ a la b lb x lx y ly, S.seqs a la → S.seqs b lb → S.seqs x lx → S.seqs y ly → Apart a b → Apart x y →
    Nearest S a b → Nearest S x y → (Same x a ∧ Same y b) ∨ (Same x b ∧ Same y a)

/-! ## Facts about sequences -/

theorem Apart.symm {x y : List Nat} (h : Apart x y) : Apart y x := fun o h1 h2 => h o h2 h1

theorem Same.mem {x y : List Nat} (h : Same x y) (o : Nat) : o ∈ x ↔ o ∈ y := by
  rcases h with rfl | rfl <;> simp

theorem Same.symm {x y : List Nat} (h : Same x y) : Same y x := by
  rcases h with rfl | rfl
  · exact .inl rfl
  · exact .inr (by simp)

theorem Same.trans {x y z : List Nat} (h : Same x y) (h' : Same y z) : Same x z := by
  rcases h with rfl | rfl
  · exact h'
  · rcases h' with rfl | rfl
    · exact .inr rfl
    · exact .inl (by simp)

theorem Same.length {x y : List Nat} (h : Same x y) : x.length = y.length := by rcases h with rfl | rfl <;> simp

theorem Same.ne {x y : List Nat} (h : Same x y) (hy : y ≠ []) : x ≠ [] := by
  rcases h with rfl | rfl
  · exact hy
  · simpa using hy

theorem Same.apart {x y z : List Nat} (h : Same x y) : Apart x z ↔ Apart y z :=
  ⟨fun hh o ho => hh o ((h.mem o).2 ho), fun hh o ho => hh o ((h.mem o).1 ho)⟩

theorem Same.apart' {x y z : List Nat} (h : Same x y) : Apart z x ↔ Apart z y :=
  ⟨fun hh => (h.apart.1 hh.symm).symm, fun hh => (h.apart.2 hh.symm).symm⟩

theorem apart_append {x a b : List Nat} : Apart x (a ++ b) ↔ Apart x a ∧ Apart x b := by
  constructor
  · intro h
    exact ⟨fun o h1 h2 => h o h1 (by simp [h2]), fun o h1 h2 => h o h1 (by simp [h2])⟩
  · rintro ⟨h1, h2⟩ o h3 h4
    rcases List.mem_append.1 h4 with h4 | h4
    · exact h1 o h3 h4
    · exact h2 o h3 h4

theorem not_apart_self {x : List Nat} (h : x ≠ []) : ¬ Apart x x := by
  cases x with
  | nil => exact absurd rfl h
  | cons o t => exact fun hh => hh o (by simp) (by simp)

theorem Same.not_apart {x y : List Nat} (hx : x ≠ []) (h : Same x y) : ¬ Apart x y := by
  intro hh
  exact not_apart_self hx (h.apart'.2 hh)

/-! ## Invariants of the clusters -/

structure Proper (n : Nat) (S : Stage α) : Prop where
  ne : ∀ x l, S.seqs x l → x ≠ []
  bound : ∀ x l, S.seqs x l → ∀ o ∈ x, o < n
  nodup : ∀ x l, S.seqs x l → x.Nodup
  len : ∀ x l, S.seqs x l → l.length + 1 = x.length
  rev : ∀ x l, S.seqs x l → S.seqs x.reverse l.reverse
  two : ∀ x l y l', S.seqs x l → S.seqs y l' → Apart x y ∨ (y = x ∧ l' = l) ∨ (y = x.reverse ∧ l' = l.reverse)
  symm : ∀ x l y l', S.seqs x l → S.seqs y l' → Apart x y → S.dist x y = S.dist y x
  flip : ∀ x l y l' z, S.seqs x l → S.seqs y l' → Apart x y → Same z x → S.dist z y = S.dist x y

theorem Proper.flip' {n : Nat} {S : Stage α} (h : Proper n S) {x l y l' z} (hx : S.seqs x l) (hy : S.seqs y l') (ha : Apart x y)
    (hz : Same z y) : S.dist x z = S.dist x y := by
  have hz' : ∃ lz, S.seqs z lz := by
    rcases hz with rfl | rfl
    · exact ⟨_, hy⟩
    · exact ⟨_, h.rev _ _ hy⟩
  obtain ⟨lz, hz'⟩ := hz'
  rw [h.symm x l z lz hx hz' (hz.apart'.2 ha), h.symm x l y l' hx hy ha]
  exact h.flip y l' x l z hy hx ha.symm hz

theorem Put.rev_same {avg : α → Nat → α → Nat → α} {S T : Stage α} {a b la lb} (h : Put avg S a la b lb T) {x l}
    (hx : T.seqs x l) : (Same x (a ++ b)) ∨ (S.seqs x l ∧ Apart x a ∧ Apart x b) := by
  rcases (h.seqs x l).1 hx with ⟨rfl, -⟩ | ⟨rfl, -⟩ | h
  · exact .inl (.inl rfl)
  · exact .inl (.inr rfl)
  · exact .inr h

theorem Proper.put {n : Nat} {avg : α → Nat → α → Nat → α} {S T : Stage α} {a b la lb} (hS : Proper n S) (ha : S.seqs a la)
    (hb : S.seqs b lb) (hab : Apart a b) (h : Put avg S a la b lb T) : Proper n T where
  ne x l hx := by
    rcases h.rev_same hx with h' | ⟨h', -, -⟩
    · exact h'.ne (by simp [hS.ne a la ha])
    · exact hS.ne x l h'
  bound x l hx o ho := by
    rcases h.rev_same hx with h' | ⟨h', -, -⟩
    · rcases List.mem_append.1 ((h'.mem o).1 ho) with h1 | h1
      · exact hS.bound a la ha o h1
      · exact hS.bound b lb hb o h1
    · exact hS.bound x l h' o ho
  nodup x l hx := by
    rcases h.rev_same hx with h' | ⟨h', -, -⟩
    · have : (a ++ b).Nodup := by
        rw [List.nodup_append]
        refine ⟨hS.nodup a la ha, hS.nodup b lb hb, ?_⟩
        rintro o h1 p h2 rfl
        exact hab o h1 h2
      rcases h' with rfl | rfl
      · exact this
      · exact List.nodup_reverse.2 this
    · exact hS.nodup x l h'
  len x l hx := by
    have e1 := hS.len a la ha
    have e2 := hS.len b lb hb
    rcases (h.seqs x l).1 hx with ⟨rfl, rfl⟩ | ⟨rfl, rfl⟩ | ⟨h', -, -⟩
    · simp; omega
    · simp; omega
    · exact hS.len x l h'
  rev x l hx := by
    rw [h.seqs]
    rcases (h.seqs x l).1 hx with ⟨rfl, rfl⟩ | ⟨rfl, rfl⟩ | ⟨h', h1, h2⟩
    · exact .inr (.inl ⟨rfl, rfl⟩)
    · exact .inl ⟨List.reverse_reverse _, List.reverse_reverse _⟩
    · refine .inr (.inr ⟨hS.rev x l h', ?_, ?_⟩)
      · exact (Same.apart (.inr rfl : Same x.reverse x)).2 h1
      · exact (Same.apart (.inr rfl : Same x.reverse x)).2 h2
  two x l y l' hx hy := by
    rcases (h.seqs x l).1 hx with ⟨rfl, rfl⟩ | ⟨rfl, rfl⟩ | ⟨h', h1, h2⟩ <;>
      rcases (h.seqs y l').1 hy with ⟨rfl, rfl⟩ | ⟨rfl, rfl⟩ | ⟨h'', h3, h4⟩
    · exact .inr (.inl ⟨rfl, rfl⟩)
    · exact .inr (.inr ⟨rfl, rfl⟩)
    · exact .inl (apart_append.2 ⟨h3, h4⟩).symm
    · exact .inr (.inr ⟨(List.reverse_reverse _).symm, (List.reverse_reverse _).symm⟩)
    · exact .inr (.inl ⟨rfl, rfl⟩)
    · exact .inl ((Same.apart' (.inr rfl : Same (a ++ b).reverse (a ++ b))).2 (apart_append.2 ⟨h3, h4⟩)).symm
    · exact .inl (apart_append.2 ⟨h1, h2⟩)
    · exact .inl ((Same.apart' (.inr rfl : Same (a ++ b).reverse (a ++ b))).2 (apart_append.2 ⟨h1, h2⟩))
    · exact hS.two x l y l' h' h''
  symm x l y l' hx hy hxy := by
    rcases h.rev_same hx with h1 | ⟨h1, h2, h3⟩ <;> rcases h.rev_same hy with h4 | ⟨h4, h5, h6⟩
    · exfalso
      have hne : x ≠ [] := h1.ne (by simp [hS.ne a la ha])
      exact (h1.trans h4.symm).not_apart hne hxy
    · rw [(h.new y l' x h4 h5 h6 h1).1, (h.new y l' x h4 h5 h6 h1).2]
    · rw [(h.new x l y h1 h2 h3 h4).1, (h.new x l y h1 h2 h3 h4).2]
    · rw [h.old x l y l' h1 h4 h2 h3 h5 h6, h.old y l' x l h4 h1 h5 h6 h2 h3]
      exact hS.symm x l y l' h1 h4 hxy
  flip x l y l' z hx hy hxy hz := by
    rcases h.rev_same hx with h1 | ⟨h1, h2, h3⟩ <;> rcases h.rev_same hy with h4 | ⟨h4, h5, h6⟩
    · exfalso
      have hne : x ≠ [] := h1.ne (by simp [hS.ne a la ha])
      exact (h1.trans h4.symm).not_apart hne hxy
    · rw [(h.new y l' x h4 h5 h6 h1).2, (h.new y l' z h4 h5 h6 (hz.trans h1)).2]
    · have hz' : ∃ lz, S.seqs z lz := by
        rcases hz with rfl | rfl
        · exact ⟨_, h1⟩
        · exact ⟨_, hS.rev _ _ h1⟩
      obtain ⟨lz, hz'⟩ := hz'
      rw [(h.new x l y h1 h2 h3 h4).1, (h.new z lz y hz' (hz.apart.2 h2) (hz.apart.2 h3) h4).1,
        hS.flip x l a la z h1 ha h2 hz, hS.flip x l b lb z h1 hb h3 hz]
    · have hz' : ∃ lz, S.seqs z lz := by
        rcases hz with rfl | rfl
        · exact ⟨_, h1⟩
        · exact ⟨_, hS.rev _ _ h1⟩
      obtain ⟨lz, hz'⟩ := hz'
      rw [h.old x l y l' h1 h4 h2 h3 h5 h6, h.old z lz y l' hz' h4 (hz.apart.2 h2) (hz.apart.2 h3) h5 h6]
      exact hS.flip x l y l' z h1 h4 hxy hz

theorem Greedy.proper [LE α] {avg : α → Nat → α → Nat → α} {D : Nat → Nat → α} (hD : ∀ i j, D i j = D j i) {n k : Nat} {S : Stage α}
    (h : Greedy avg D n k S) : Proper n S := by
  induction h with
  | @start S h1 h2 =>
    have same : ∀ z i, Same z [i] → z = [i] := by
      rintro z i (rfl | rfl) <;> simp
    refine ⟨?_, ?_, ?_, ?_, ?_, ?_, ?_, ?_⟩
    · intro x l hx
      obtain ⟨i, -, rfl, rfl⟩ := (h1 x l).1 hx
      simp
    · intro x l hx
      obtain ⟨i, hi, rfl, rfl⟩ := (h1 x l).1 hx
      simpa using hi
    · intro x l hx
      obtain ⟨i, -, rfl, rfl⟩ := (h1 x l).1 hx
      simp
    · intro x l hx
      obtain ⟨i, -, rfl, rfl⟩ := (h1 x l).1 hx
      simp
    · intro x l hx
      obtain ⟨i, -, rfl, rfl⟩ := (h1 x l).1 hx
      simpa using hx
    · intro x l y l' hx hy
      obtain ⟨i, -, rfl, rfl⟩ := (h1 x l).1 hx
      obtain ⟨j, -, rfl, rfl⟩ := (h1 y l').1 hy
      by_cases hij : i = j
      · exact .inr (.inl (by simp [hij]))
      · exact .inl (by intro o h3 h4; simp at h3 h4; omega)
    · intro x l y l' hx hy hxy
      obtain ⟨i, hi, rfl, rfl⟩ := (h1 x l).1 hx
      obtain ⟨j, hj, rfl, rfl⟩ := (h1 y l').1 hy
      have hij : i ≠ j := by
        rintro rfl
        exact hxy i (by simp) (by simp)
      rw [h2 i j hi hj hij, h2 j i hj hi (Ne.symm hij)]
      exact hD i j
    · intro x l y l' z hx hy hxy hz
      obtain ⟨i, hi, rfl, rfl⟩ := (h1 x l).1 hx
      rw [same z i hz]
  | join _ h1 h2 h3 _ _ h4 ih => exact ih.put h1 h2 h3 h4

/-! ## Without ties there is only one way -/

/-- The same clusters at the same distances. -/
structure Agree (S T : Stage α) : Prop where
  seqs : ∀ x l, S.seqs x l ↔ T.seqs x l
  dist : ∀ x l y l', S.seqs x l → S.seqs y l' → Apart x y → S.dist x y = T.dist x y

theorem Put.agree {n : Nat} {avg : α → Nat → α → Nat → α} {S T S' T' : Stage α} {a b la lb} (hS : Proper n S) (hA : Agree S T)
    (ha : S.seqs a la) (hb : S.seqs b lb) (hab : Apart a b) (h : Put avg S a la b lb S') (h' : Put avg T a la b lb T') :
    Agree S' T' where
  seqs x l := by
    rw [h.seqs, h'.seqs, hA.seqs, hA.dist a la b lb ha hb hab]
  dist x l y l' hx hy hxy := by
    rcases h.rev_same hx with h1 | ⟨h1, h2, h3⟩ <;> rcases h.rev_same hy with h4 | ⟨h4, h5, h6⟩
    · exfalso
      have hne : x ≠ [] := h1.ne (by simp [hS.ne a la ha])
      exact (h1.trans h4.symm).not_apart hne hxy
    · rw [(h.new y l' x h4 h5 h6 h1).2, (h'.new y l' x ((hA.seqs _ _).1 h4) h5 h6 h1).2,
        hA.dist y l' a la h4 ha h5, hA.dist y l' b lb h4 hb h6]
    · rw [(h.new x l y h1 h2 h3 h4).1, (h'.new x l y ((hA.seqs _ _).1 h1) h2 h3 h4).1,
        hA.dist x l a la h1 ha h2, hA.dist x l b lb h1 hb h3]
    · rw [h.old x l y l' h1 h4 h2 h3 h5 h6, h'.old x l y l' ((hA.seqs _ _).1 h1) ((hA.seqs _ _).1 h4) h2 h3 h5 h6]
      exact hA.dist x l y l' h1 h4 hxy

theorem Put.other {n : Nat} {avg : α → Nat → α → Nat → α} (hc : ∀ a p b q, avg a p b q = avg b q a p) {S T : Stage α} {a b la lb}
    (hS : Proper n S) (ha : S.seqs a la) (hb : S.seqs b lb) (hab : Apart a b)
    (h : Put avg S b.reverse lb.reverse a.reverse la.reverse T) : Put avg S a la b lb T := by
  have ra : Same a.reverse a := .inr rfl
  have rb : Same b.reverse b := .inr rfl
  have rab : Same (b.reverse ++ a.reverse) (a ++ b) := .inr (by simp)
  have ev : S.dist b.reverse a.reverse = S.dist a b := by
    rw [hS.flip b lb a.reverse la.reverse b.reverse hb (hS.rev _ _ ha) (ra.apart'.2 hab.symm) rb,
      hS.flip' hb ha hab.symm ra, hS.symm b lb a la hb ha hab.symm]
  refine ⟨?_, ?_, ?_⟩
  · intro o g
    rw [h.seqs, ra.apart', rb.apart', ev]
    constructor
    · rintro (⟨rfl, rfl⟩ | ⟨rfl, rfl⟩ | ⟨h1, h2, h3⟩)
      · exact .inr (.inl ⟨by simp, by simp⟩)
      · exact .inl ⟨by simp, by simp⟩
      · exact .inr (.inr ⟨h1, h3, h2⟩)
    · rintro (⟨rfl, rfl⟩ | ⟨rfl, rfl⟩ | ⟨h1, h2, h3⟩)
      · exact .inr (.inl ⟨by simp, by simp⟩)
      · exact .inl ⟨by simp, by simp⟩
      · exact .inr (.inr ⟨h1, h3, h2⟩)
  · intro x lx y ly h1 h2 h3 h4 h5 h6
    exact h.old x lx y ly h1 h2 (rb.apart'.2 h4) (ra.apart'.2 h3) (rb.apart'.2 h6) (ra.apart'.2 h5)
  · intro x lx c hx h1 h2 hs
    have := h.new x lx c hx (rb.apart'.2 h2) (ra.apart'.2 h1) (hs.trans rab.symm)
    rw [hS.flip' hx ha h1 ra, hS.flip' hx hb h2 rb, List.length_reverse, List.length_reverse, hc] at this
    exact this

theorem single_of_ends {x : List Nat} (hn : x.Nodup) (h : x.head? = x.getLast?) : x.length ≤ 1 := by
  cases x with
  | nil => simp
  | cons o t =>
    cases t with
    | nil => simp
    | cons p t =>
      exfalso
      rw [List.head?_cons, List.getLast?_cons_cons] at h
      have := List.mem_of_getLast? h.symm
      exact (List.nodup_cons.1 hn).1 this

theorem Proper.oriented {n : Nat} {S : Stage α} (hS : Proper n S) {a a' la la'} (ha : S.seqs a la) (ha' : S.seqs a' la')
    (hs : Same a' a) (h : a'.getLast? = a.getLast?) : a' = a ∧ la' = la := by
  rcases hS.two a la a' la' ha ha' with h1 | h1 | ⟨rfl, rfl⟩
  · exact absurd h1 (hs.symm.not_apart (hS.ne _ _ ha))
  · exact h1
  · rw [List.getLast?_reverse] at h
    have h1 := single_of_ends (hS.nodup a la ha) h
    have h2 := hS.len a la ha
    have h3 : la = [] := List.length_eq_zero_iff.1 (by omega)
    subst h3
    refine ⟨?_, by simp⟩
    match a, h1 with
    | [], _ => rfl
    | [o], _ => rfl
    | _ :: _ :: _, h1 => simp at h1

theorem mem_endsOf {c : List Nat} {x : Nat} (h : x ∈ endsOf c) : x ∈ c := by
  simp only [endsOf, List.mem_append, Option.mem_toList] at h
  rcases h with h | h
  · exact List.mem_of_mem_head? h
  · exact List.mem_of_getLast? h

theorem Same.ends {x y : List Nat} (h : Same x y) (o : Nat) : o ∈ endsOf x ↔ o ∈ endsOf y := by
  rcases h with rfl | rfl
  · rfl
  · exact mem_endsOf_reverse _ _

theorem Same.rev {x y : List Nat} (h : Same x y) : Same x.reverse y.reverse := by
  rcases h with rfl | rfl
  · exact .inl rfl
  · exact .inr rfl

theorem Greedy.unique [LinearOrder α] {avg : α → Nat → α → Nat → α} (hc : ∀ a p b q, avg a p b q = avg b q a p) {D : Nat → Nat → α}
    (hD : ∀ i j, D i j = D j i) {n : Nat} (hd : Distinct D n) (ht : NoTies avg D n) : ∀ {k : Nat} {S T : Stage α},
    Greedy avg D n k S → Greedy avg D n k T → Agree S T := by
  intro k
  induction k with
  | zero =>
    intro S T hS hT
    cases hS with
    | start h1 h2 =>
      cases hT with
      | start h3 h4 =>
        refine ⟨fun x l => by rw [h1, h3], ?_⟩
        intro x l y l' hx hy hxy
        obtain ⟨i, hi, rfl, rfl⟩ := (h1 x l).1 hx
        obtain ⟨j, hj, rfl, rfl⟩ := (h1 y l').1 hy
        have hij : i ≠ j := by
          rintro rfl
          exact hxy i (by simp) (by simp)
        rw [h2 i j hi hj hij, h4 i j hi hj hij]
  | succ k ih =>
    intro S' T' hS' hT'
    cases hS' with
    | @join _ S _ a b la lb hS ha hb hab hn hcl hp =>
      cases hT' with
      | @join _ T _ a' b' la' lb' hT ha' hb' hab' hn' hcl' hp' =>
        have hA := ih hS hT
        have pS := hS.proper hD
        have pT := hT.proper hD
        have sa' := (hA.seqs _ _).2 ha'
        have sb' := (hA.seqs _ _).2 hb'
        have ta := (hA.seqs _ _).1 ha
        have tb := (hA.seqs _ _).1 hb
        have hnS : Nearest S a' b' := by
          intro x lx y ly hx hy hxy
          rw [hA.dist a' la' b' lb' sa' sb' hab', hA.dist x lx y ly hx hy hxy]
          exact hn' x lx y ly ((hA.seqs _ _).1 hx) ((hA.seqs _ _).1 hy) hxy
        have hpair := ht k S hS a la b lb a' la' b' lb' ha hb sa' sb' hab hab' hn hnS
        have last : ∀ c : List Nat, c ≠ [] → ∃ p, c.getLast? = some p := fun c hc =>
          ⟨_, List.getLast?_eq_some_getLast hc⟩
        have first : ∀ c : List Nat, c ≠ [] → ∃ p, c.head? = some p := fun c hc => ⟨_, List.head?_eq_some_head hc⟩
        obtain ⟨p, ep⟩ := last a (pS.ne _ _ ha)
        obtain ⟨q, eq⟩ := first b (pS.ne _ _ hb)
        obtain ⟨p', ep'⟩ := last a' (pS.ne _ _ sa')
        obtain ⟨q', eq'⟩ := first b' (pS.ne _ _ sb')
        have mp : p ∈ endsOf a := by simp [endsOf, ep]
        have mq : q ∈ endsOf b := by simp [endsOf, eq]
        have mp' : p' ∈ endsOf a' := by simp [endsOf, ep']
        have mq' : q' ∈ endsOf b' := by simp [endsOf, eq']
        have lp := pS.bound _ _ ha p (mem_endsOf mp)
        have lq := pS.bound _ _ hb q (mem_endsOf mq)
        have lp' := pS.bound _ _ sa' p' (mem_endsOf mp')
        have lq' := pS.bound _ _ sb' q' (mem_endsOf mq')
        have npq : p ≠ q := by
          rintro rfl
          exact hab p (mem_endsOf mp) (mem_endsOf mq)
        have npq' : p' ≠ q' := by
          rintro rfl
          exact hab' p' (mem_endsOf mp') (mem_endsOf mq')
        rcases hpair with ⟨s1, s2⟩ | ⟨s1, s2⟩
        · have e : D p q = D p' q' := le_antisymm
            (hcl p ep q eq p' ((s1.ends _).1 mp') q' ((s2.ends _).1 mq'))
            (hcl' p' ep' q' eq' p ((s1.ends _).2 mp) q ((s2.ends _).2 mq))
          rcases hd p q p' q' lp lq lp' lq' npq npq' e with ⟨rfl, rfl⟩ | ⟨rfl, rfl⟩
          · obtain ⟨rfl, rfl⟩ := pS.oriented ha sa' s1 (by rw [ep, ep'])
            obtain ⟨e1, e2⟩ := pS.oriented (pS.rev _ _ hb) (pS.rev _ _ sb') (a := b.reverse) (a' := b'.reverse)
              (Same.rev s2) (by rw [List.getLast?_reverse, List.getLast?_reverse, eq, eq'])
            rw [List.reverse_inj] at e1 e2
            subst e1 e2
            exact hp.agree pS hA ha hb hab hp'
          · exact absurd ((s2.mem _).1 (mem_endsOf mq')) (hab _ (mem_endsOf mp))
        · have e : D p q = D p' q' := by
            refine le_antisymm ?_ ?_
            · rw [hD p' q']
              exact hcl p ep q eq q' ((s2.ends _).1 mq') p' ((s1.ends _).1 mp')
            · rw [hD p q]
              exact hcl' p' ep' q' eq' q ((s1.ends _).2 mq) p ((s2.ends _).2 mp)
          rcases hd p q p' q' lp lq lp' lq' npq npq' e with ⟨rfl, rfl⟩ | ⟨rfl, rfl⟩
          · exact absurd ((s1.mem _).1 (mem_endsOf mp')) (hab _ (mem_endsOf mp))
          · obtain ⟨rfl, rfl⟩ := pS.oriented (pS.rev _ _ hb) sa' (s1.trans (.inr (by simp))) (by rw [List.getLast?_reverse, eq, ep'])
            obtain ⟨e1, e2⟩ := pS.oriented ha (pS.rev _ _ sb') (Same.trans (.inr rfl) s2) (by rw [List.getLast?_reverse, eq', ep])
            have e1 : b' = a.reverse := by rw [← e1, List.reverse_reverse]
            have e2 : lb' = la.reverse := by rw [← e2, List.reverse_reverse]
            subst e1 e2
            exact hp.agree pS hA ha hb hab (hp'.other hc pT ta tb hab)

/-! ## Other names for the objects -/

/-- The clusters when every object `i` is called `σ i`; `τ` is the inverse of `σ`. -/
def Stage.rename (τ : Nat → Nat) (S : Stage α) : Stage α where
  seqs o g := S.seqs (o.map τ) g
  dist x y := S.dist (x.map τ) (y.map τ)

/-- `σ` is a permutation of the numbers below `n`, and `τ` is its inverse. -/
structure Renaming (n : Nat) (σ τ : Nat → Nat) : Prop where
  left : ∀ i, τ (σ i) = i
  right : ∀ i, σ (τ i) = i
  range : ∀ i, σ i < n ↔ i < n

theorem Renaming.map_left {n σ τ} (h : Renaming n σ τ) (l : List Nat) : (l.map σ).map τ = l := by
  simp [h.left, Function.comp_def]

theorem Renaming.map_right {n σ τ} (h : Renaming n σ τ) (l : List Nat) : (l.map τ).map σ = l := by
  simp [h.right, Function.comp_def]

theorem Renaming.apart {n σ τ} (h : Renaming n σ τ) {x y : List Nat} : Apart (x.map τ) (y.map τ) ↔ Apart x y := by
  constructor
  · intro hh o h1 h2
    exact hh (τ o) (List.mem_map_of_mem h1) (List.mem_map_of_mem h2)
  · intro hh o h1 h2
    obtain ⟨p, hp, rfl⟩ := List.mem_map.1 h1
    obtain ⟨q, hq, e⟩ := List.mem_map.1 h2
    have : q = p := by rw [← h.right q, e, h.right]
    exact hh p hp (this ▸ hq)

theorem Renaming.apart' {n σ τ} (h : Renaming n σ τ) {x y : List Nat} : Apart (x.map τ) y ↔ Apart x (y.map σ) := by
  rw [← h.apart (x := x), h.map_left]

theorem Renaming.endsOf {n σ τ} (h : Renaming n σ τ) {c : List Nat} {o : Nat} (ho : o ∈ endsOf (c.map σ)) : τ o ∈ endsOf c := by
  simp only [Cluster.endsOf, List.mem_append, Option.mem_toList, List.head?_map, List.getLast?_map,
    Option.map_eq_some_iff] at ho ⊢
  rcases ho with ⟨p, hp, rfl⟩ | ⟨p, hp, rfl⟩
  · exact .inl (by rw [h.left]; exact hp)
  · exact .inr (by rw [h.left]; exact hp)

theorem Greedy.rename [LE α] {avg : α → Nat → α → Nat → α} {D D' : Nat → Nat → α} {n : Nat} {σ τ : Nat → Nat} (h : Renaming n σ τ)
    (hD : ∀ i j, D' i j = D (σ i) (σ j)) {k : Nat} {S : Stage α} (hS : Greedy avg D' n k S) : Greedy avg D n k (S.rename τ) := by
  have hτ : ∀ i, i < n → τ i < n := fun i hi => (h.range _).1 (by rw [h.right]; exact hi)
  induction hS with
  | @start S h1 h2 =>
    refine .start ?_ ?_
    · intro o g
      show S.seqs (o.map τ) g ↔ _
      rw [h1]
      constructor
      · rintro ⟨i, hi, e, rfl⟩
        refine ⟨σ i, (h.range i).2 hi, ?_, rfl⟩
        have := congrArg (List.map σ) e
        rw [h.map_right] at this
        simpa using this
      · rintro ⟨i, hi, rfl, rfl⟩
        exact ⟨τ i, hτ i hi, rfl, rfl⟩
    · intro i j hi hj hij
      show S.dist [τ i] [τ j] = _
      rw [h2 (τ i) (τ j) (hτ i hi) (hτ j hj) (fun e => hij (by rw [← h.right i, e, h.right])), hD, h.right, h.right]
  | @join k S T a b la lb _ ha hb hab hn hcl hp ih =>
    refine .join (a := a.map σ) (b := b.map σ) (la := la) (lb := lb) ih ?_ ?_ ?_ ?_ ?_ ?_
    · show S.seqs ((a.map σ).map τ) la
      rw [h.map_left]; exact ha
    · show S.seqs ((b.map σ).map τ) lb
      rw [h.map_left]; exact hb
    · rw [← h.apart, h.map_left, h.map_left]; exact hab
    · intro x lx y ly hx hy hxy
      show S.dist ((a.map σ).map τ) ((b.map σ).map τ) ≤ S.dist (x.map τ) (y.map τ)
      rw [h.map_left, h.map_left]
      exact hn _ lx _ ly hx hy (h.apart.2 hxy)
    · intro p hp q hq x hx y hy
      rw [List.getLast?_map] at hp
      rw [List.head?_map] at hq
      obtain ⟨p', hp', rfl⟩ := Option.map_eq_some_iff.1 hp
      obtain ⟨q', hq', rfl⟩ := Option.map_eq_some_iff.1 hq
      have := hcl p' hp' q' hq' (τ x) (h.endsOf hx) (τ y) (h.endsOf hy)
      rw [hD, hD, h.right, h.right] at this
      exact this
    · have em : ∀ o c : List Nat, o.map τ = c ↔ o = c.map σ := by
        intro o c
        constructor
        · intro e
          rw [← e, h.map_right]
        · intro e
          rw [e, h.map_left]
      refine ⟨?_, ?_, ?_⟩
      · intro o g
        show T.seqs (o.map τ) g ↔ (_ ∧ g = la ++ S.dist ((a.map σ).map τ) ((b.map σ).map τ) :: lb) ∨
          (_ ∧ g = (la ++ S.dist ((a.map σ).map τ) ((b.map σ).map τ) :: lb).reverse) ∨ (S.seqs (o.map τ) g ∧ _)
        rw [hp.seqs, h.map_left, h.map_left, em, em, List.map_append, List.map_reverse, List.map_append, h.apart', h.apart']
      · intro x lx y ly hx hy h1 h2 h3 h4
        exact hp.old _ lx _ ly hx hy (h.apart'.2 h1) (h.apart'.2 h2) (h.apart'.2 h3) (h.apart'.2 h4)
      · intro x lx c hx h1 h2 hs
        show T.dist (x.map τ) (c.map τ) = avg (S.dist (x.map τ) ((a.map σ).map τ)) _ (S.dist (x.map τ) ((b.map σ).map τ)) _ ∧
          T.dist (c.map τ) (x.map τ) = avg (S.dist (x.map τ) ((a.map σ).map τ)) _ (S.dist (x.map τ) ((b.map σ).map τ)) _
        rw [h.map_left, h.map_left, List.length_map, List.length_map]
        refine hp.new _ lx _ hx (h.apart'.2 h1) (h.apart'.2 h2) ?_
        rcases hs with rfl | rfl
        · exact .inl (by rw [← List.map_append, h.map_left])
        · exact .inr (by rw [List.map_reverse, ← List.map_append, h.map_left])

/-! ## The code joins nearest clusters -/

/-- The clusters after `b` has been put after `a`. -/
def Stage.put (avg : α → Nat → α → Nat → α) (S : Stage α) (a : List Nat) (la : List α) (b : List Nat) (lb : List α) :
    Stage α where
  seqs o g := (o = a ++ b ∧ g = la ++ S.dist a b :: lb) ∨
    (o = (a ++ b).reverse ∧ g = (la ++ S.dist a b :: lb).reverse) ∨ (S.seqs o g ∧ Apart o a ∧ Apart o b)
  dist x y :=
    if Apart x (a ++ b) ∧ Apart y (a ++ b) then S.dist x y
    else if Apart x (a ++ b) then avg (S.dist x a) a.length (S.dist x b) b.length
    else avg (S.dist y a) a.length (S.dist y b) b.length

theorem Stage.put_put (avg : α → Nat → α → Nat → α) (S : Stage α) {a : List Nat} (la : List α) (b : List Nat) (lb : List α)
    (ha : a ≠ []) : Put avg S a la b lb (S.put avg a la b lb) where
  seqs _ _ := Iff.rfl
  old x lx y ly _ _ h1 h2 h3 h4 := by
    show (if _ then _ else _) = _
    rw [if_pos ⟨apart_append.2 ⟨h1, h2⟩, apart_append.2 ⟨h3, h4⟩⟩]
  new x lx c _ h1 h2 hs := by
    have hx := apart_append.2 ⟨h1, h2⟩
    have hcn : ¬ Apart c (a ++ b) := hs.not_apart (hs.ne (by simp [ha]))
    constructor
    · show (if _ then _ else if _ then _ else _) = _
      rw [if_neg (fun h => hcn h.2), if_pos hx]
    · show (if _ then _ else if _ then _ else _) = _
      rw [if_neg (fun h => hcn h.1), if_neg hcn]

/-- The clusters and distances of the code are those of `S`. -/
structure Shows (n : Nat) (D : Nat → Nat → α) (cl : Nat → List Nat) (lv : Nat → Option α) (S : Stage α) : Prop where
  seqs : ∀ o g, S.seqs o g ↔ ∃ i < n, cl i ≠ [] ∧
    ((o = cl i ∧ g.map some = (cl i).tail.map lv) ∨ (o = (cl i).reverse ∧ g.map some = ((cl i).tail.map lv).reverse))
  dist : ∀ i < n, ∀ j < n, i ≠ j → cl i ≠ [] → cl j ≠ [] → S.dist (cl i) (cl j) = D i j

/-- The comparisons are those of a linear order, and averages do not depend on which of two numbers comes first. -/
structure Lawful [LinearOrder α] (A : Arith α) : Prop where
  gt : ∀ a b, A.gt a b = true ↔ b < a
  le : ∀ a b, A.le a b = true ↔ a ≤ b
  avg : ∀ a p b q, A.avg a p b q = A.avg b q a p

theorem all_some {l : List (Option α)} (h : ∀ x ∈ l, x.isSome) : ∃ l' : List α, l = l'.map some := by
  induction l with
  | nil => exact ⟨[], rfl⟩
  | cons x t ih =>
    obtain ⟨t', rfl⟩ := ih fun y hy => h y (by simp [hy])
    obtain ⟨v, rfl⟩ := Option.isSome_iff_exists.1 (h x (by simp))
    exact ⟨v :: t', rfl⟩

theorem Shows.gaps {m n k : Nat} {D : Nat → Nat → α} {cl : Nat → List Nat} {lv : Nat → Option α} {S : Stage α} (h : Shows n D cl lv S)
    (hi : Inv m n k cl lv) {i : Nat} (hin : i < n) (hne : cl i ≠ []) {o : List Nat} {g : List (Option α)}
    (ho : (o = cl i ∧ g = (cl i).tail.map lv) ∨ (o = (cl i).reverse ∧ g = ((cl i).tail.map lv).reverse)) :
    ∃ l : List α, g = l.map some ∧ S.seqs o l ∧ Same o (cl i) := by
  have : ∃ l : List α, g = l.map some := by
    apply all_some
    intro x hx
    have : x ∈ (cl i).tail.map lv := by
      rcases ho with ⟨-, rfl⟩ | ⟨-, rfl⟩
      · exact hx
      · simpa using hx
    obtain ⟨o, ho, rfl⟩ := List.mem_map.1 this
    exact hi.assigned i hin o ho
  obtain ⟨l, rfl⟩ := this
  refine ⟨l, rfl, (h.seqs o l).2 ⟨i, hin, hne, ho⟩, ho.imp (·.1) (·.1)⟩

theorem Shows.step [LinearOrder α] {A : Arith α} (hA : Lawful A) {m n k : Nat} (hmn : m + 1 = n) {D0 : Nat → Nat → α}
    (hD : ∀ i j, D0 i j = D0 j i)
    {D : Nat → Nat → α} {s s' : St α} {c1 c2 o1 o2 g1 g2} (hi : Inv m n k s.clusters s.levels) {S : Stage α} {K : Nat}
    (hS : Greedy A.avg D0 n K S) (h : Shows n D s.clusters s.levels S) (hM : Merged A m n D0 D s s' c1 c2 o1 o2 g1 g2) :
    ∃ T, Greedy A.avg D0 n (K + 1) T ∧ Shows n (newD A s.clusters m c1 c2 D n) s'.clusters s'.levels T := by
  have hc1 : c1 < c2 := hM.cell.1
  have hc2 : c1 < m := hM.cell.2.1
  have hc3 : c2 < n := hM.cell.2.2
  have hc4 : c1 < n := by omega
  have pS := hS.proper hD
  obtain ⟨la, rfl, hs1, e1⟩ := h.gaps hi hc4 hM.act1 hM.left
  obtain ⟨lb, rfl, hs2, e2⟩ := h.gaps hi hc3 hM.act2 hM.right
  have other : ∀ i < n, ∀ j < n, i ≠ j → Apart (s.clusters i) (s.clusters j) := by
    intro i hin j hjn hij o h1 h2
    exact hij (hi.disj i hin j hjn o h1 h2)
  have mem : ∀ i < n, s.clusters i ≠ [] → ∃ l, S.seqs (s.clusters i) l := by
    intro i hin hne
    obtain ⟨l, -, h1, -⟩ := h.gaps hi hin hne (.inl ⟨rfl, rfl⟩)
    exact ⟨l, h1⟩
  have hap : Apart o1 o2 := e1.apart.2 (e2.apart'.2 (other c1 hc4 c2 hc3 (by omega)))
  have dd : ∀ i < n, ∀ j < n, i ≠ j → s.clusters i ≠ [] → s.clusters j ≠ [] → ∀ x lx y ly, S.seqs x lx → S.seqs y ly →
      Same x (s.clusters i) → Same y (s.clusters j) → S.dist x y = D i j := by
    intro i hin j hjn hij ni nj x lx y ly hx hy sx sy
    obtain ⟨li, hli⟩ := mem i hin ni
    obtain ⟨lj, hlj⟩ := mem j hjn nj
    rw [pS.flip (s.clusters i) li y ly x hli hy (sy.apart'.2 (other i hin j hjn hij)) sx,
      pS.flip' hli hlj (other i hin j hjn hij) sy, h.dist i hin j hjn hij ni nj]
  have ev : S.dist o1 o2 = D c1 c2 := dd c1 hc4 c2 hc3 (by omega) hM.act1 hM.act2 o1 la o2 lb hs1 hs2 e1 e2
  have hnear : Nearest S o1 o2 := by
    intro x lx y ly hx hy hxy
    obtain ⟨i, hin, ni, hx'⟩ := (h.seqs x lx).1 hx
    obtain ⟨j, hjn, nj, hy'⟩ := (h.seqs y ly).1 hy
    have sx : Same x (s.clusters i) := hx'.imp (·.1) (·.1)
    have sy : Same y (s.clusters j) := hy'.imp (·.1) (·.1)
    have hij : i ≠ j := by
      rintro rfl
      exact (sx.trans sy.symm).not_apart (pS.ne _ _ hx) hxy
    have hmin := hM.min (by intro a; rw [← Bool.not_eq_true, hA.gt]; exact lt_irrefl a) (by
      intro a b c h1 h2
      rw [← Bool.not_eq_true, hA.gt] at h2 ⊢
      rw [hA.gt] at h1
      intro h3
      exact h2 (lt_trans h3 h1))
    rw [ev]
    rcases Nat.lt_or_ge i j with hlt | hge
    · rw [dd i hin j hjn hij ni nj x lx y ly hx hy sx sy]
      have := hmin i j ⟨hlt, by show i < m; omega, hjn⟩ ni nj
      rw [← Bool.not_eq_true, hA.gt] at this
      exact not_lt.1 this
    · rw [pS.symm x lx y ly hx hy hxy, dd j hjn i hin (Ne.symm hij) nj ni y ly x lx hy hx sy sx]
      have := hmin j i ⟨by show j < i; omega, by show j < m; omega, hin⟩ nj ni
      rw [← Bool.not_eq_true, hA.gt] at this
      exact not_lt.1 this
  have hclose : ∀ p ∈ o1.getLast?, ∀ q ∈ o2.head?, ∀ x ∈ endsOf o1, ∀ y ∈ endsOf o2, D0 p q ≤ D0 x y := by
    have := hM.close hmn (by intro a b; rw [hA.le, hA.le]; exact le_total a b) (by
      intro a b c h1 h2
      rw [hA.le] at *
      exact le_trans h1 h2)
    intro p hp q hq x hx y hy
    exact (hA.le _ _).1 (this p hp q hq x hx y hy)
  have hput := S.put_put A.avg la o2 lb (pS.ne _ _ hs1)
  have same1 : ∀ x, Apart x o1 ↔ Apart x (s.clusters c1) := fun x => e1.apart'
  have same2 : ∀ x, Apart x o2 ↔ Apart x (s.clusters c2) := fun x => e2.apart'
  have cl1 : s'.clusters c1 = o1 ++ o2 := by
    rw [hM.clusters]
    simp [upd, show c1 ≠ c2 by omega]
  have cl2 : s'.clusters c2 = [] := by
    rw [hM.clusters]
    simp [upd]
  have clo : ∀ i, i ≠ c1 → i ≠ c2 → s'.clusters i = s.clusters i := by
    intro i h1 h2
    rw [hM.clusters]
    simp [upd, h1, h2]
  have lvo : ∀ i < n, i ≠ c1 → i ≠ c2 → (s.clusters i).tail.map s'.levels = (s.clusters i).tail.map s.levels := by
    intro i hin h1 h2
    apply List.map_congr_left
    intro o ho
    have ho := List.mem_of_mem_tail ho
    exact hM.other o (fun h' => h1 (hi.disj i hin c1 hc4 o ho h')) (fun h' => h2 (hi.disj i hin c2 hc3 o ho h'))
  refine ⟨_, .join hS hs1 hs2 hap hnear hclose hput, ?_, ?_⟩
  · intro o g
    rw [hput.seqs, ev]
    constructor
    · rintro (⟨rfl, rfl⟩ | ⟨rfl, rfl⟩ | ⟨h1, h2, h3⟩)
      · refine ⟨c1, hc4, by rw [cl1]; simp [pS.ne _ _ hs1], .inl ⟨cl1.symm, ?_⟩⟩
        rw [cl1, hM.gaps]
        simp
      · refine ⟨c1, hc4, by rw [cl1]; simp [pS.ne _ _ hs1], .inr ⟨by rw [cl1], ?_⟩⟩
        rw [cl1, hM.gaps]
        simp
      · obtain ⟨i, hin, ni, hx⟩ := (h.seqs o g).1 h1
        have so : Same o (s.clusters i) := hx.imp (·.1) (·.1)
        have i1 : i ≠ c1 := by
          rintro rfl
          exact so.not_apart (pS.ne _ _ h1) ((same1 o).1 h2)
        have i2 : i ≠ c2 := by
          rintro rfl
          exact so.not_apart (pS.ne _ _ h1) ((same2 o).1 h3)
        refine ⟨i, hin, by rw [clo i i1 i2]; exact ni, ?_⟩
        rw [clo i i1 i2, lvo i hin i1 i2]
        exact hx
    · rintro ⟨i, hin, ni, hx⟩
      have i2 : i ≠ c2 := by
        rintro rfl
        exact ni cl2
      by_cases i1 : i = c1
      · subst i1
        rw [cl1, hM.gaps] at hx
        rcases hx with ⟨rfl, hg⟩ | ⟨rfl, hg⟩
        · exact .inl ⟨rfl, map_some_inj (by rw [hg]; simp)⟩
        · exact .inr (.inl ⟨rfl, map_some_inj (by rw [hg]; simp)⟩)
      · rw [clo i i1 i2] at ni
        rw [clo i i1 i2, lvo i hin i1 i2] at hx
        have so : Same o (s.clusters i) := hx.imp (·.1) (·.1)
        refine .inr (.inr ⟨(h.seqs o g).2 ⟨i, hin, ni, hx⟩, ?_, ?_⟩)
        · exact (same1 o).2 (so.apart.2 (other i hin c1 hc4 i1))
        · exact (same2 o).2 (so.apart.2 (other i hin c2 hc3 i2))
  · have key : ∀ i < n, i ≠ c1 → s'.clusters i ≠ [] → i ≠ c2 ∧ s.clusters i ≠ [] ∧ s'.clusters i = s.clusters i ∧
        Apart (s.clusters i) o1 ∧ Apart (s.clusters i) o2 := by
      intro i hin i1 ni
      have i2 : i ≠ c2 := by
        rintro rfl
        exact ni cl2
      rw [clo i i1 i2] at ni
      exact ⟨i2, ni, clo i i1 i2, (same1 _).2 (other i hin c1 hc4 i1), (same2 _).2 (other i hin c2 hc3 i2)⟩
    have av : ∀ i < n, i ≠ c1 → s'.clusters i ≠ [] → (S.put A.avg o1 la o2 lb).dist (s.clusters i) (o1 ++ o2) =
        A.avg (D i c1) (s.clusters c1).length (D i c2) (s.clusters c2).length ∧
        (S.put A.avg o1 la o2 lb).dist (o1 ++ o2) (s.clusters i) =
        A.avg (D i c1) (s.clusters c1).length (D i c2) (s.clusters c2).length := by
      intro i hin i1 ni
      obtain ⟨i2, ni', -, h1, h2⟩ := key i hin i1 ni
      obtain ⟨l, hl⟩ := mem i hin ni'
      have := hput.new (s.clusters i) l (o1 ++ o2) hl h1 h2 (.inl rfl)
      rw [dd i hin c1 hc4 i1 ni' hM.act1 _ l _ la hl hs1 (.inl rfl) e1, dd i hin c2 hc3 i2 ni' hM.act2 _ l _ lb hl hs2 (.inl rfl) e2,
        e1.length, e2.length] at this
      exact this
    intro i hin j hjn hij ni nj
    unfold newD Cond
    by_cases j1 : j = c1
    · subst j1
      obtain ⟨i2, ni', ei, h1, h2⟩ := key i hin hij ni
      rw [if_pos ⟨rfl, ⟨ni', hij, i2, by omega⟩, hin⟩, ei, cl1]
      exact (av i hin hij ni).1
    · obtain ⟨j2, nj', ej, h3, h4⟩ := key j hjn j1 nj
      rw [if_neg (fun h => j1 h.1)]
      by_cases i1 : i = c1
      · subst i1
        rw [if_pos ⟨rfl, ⟨nj', Ne.symm hij, j2, by omega⟩, hjn⟩, ej, cl1]
        exact (av j hjn j1 nj).2
      · obtain ⟨i2, ni', ei, h1, h2⟩ := key i hin i1 ni
        obtain ⟨li, hli⟩ := mem i hin ni'
        obtain ⟨lj, hlj⟩ := mem j hjn nj'
        rw [if_neg (fun h => i1 h.1), ei, ej, hput.old _ li _ lj hli hlj h1 h2 h3 h4]
        exact h.dist i hin j hjn hij ni' nj'

theorem Filled.shape {zero : α} {d : Matrix α} {m n : Nat} {D : Nat → Nat → α} (h : Filled zero d m n D) (hmn : n ≤ m + 1) :
    d.n = n ∧ d.m + 1 = d.n := by
  obtain ⟨d₀, ops, h1, h2, h3⟩ := h.made
  obtain ⟨w, hm, hn, -⟩ := new_ok h1
  obtain ⟨d', e, w', hm', hn', -⟩ := runSets_slots w ops h2
  rw [h3] at e; injection e with e; subst e
  have := w'.mlt
  omega

theorem cluster_greedy [LinearOrder α] {A : Arith α} (hA : Lawful A) {d : Matrix α} {m n : Nat} {D : Nat → Nat → α}
    (h : Filled A.zero d m n D) (hD : ∀ i j, D i j = D j i) (hmn : n ≤ m + 1) :
    ∃ r S, clusterObjects A d = .ok r ∧ r.order.Perm (List.range n) ∧ r.levels.length + 1 = r.order.length ∧
      Greedy A.avg D n (n - 1) S ∧ S.seqs r.order r.levels := by
  obtain ⟨hdn, hdm⟩ := h.shape hmn
  obtain ⟨r, D', s, e, hperm, hlen, ho, hl, hp, hi⟩ := cluster_result A h
    (fun D' s => ∃ k S, Greedy A.avg D d.n k S ∧ Shows d.n D' s.clusters s.levels S ∧
      ((List.range d.n).filter fun i => s.clusters i ≠ []).length + k = d.n)
    (by
      refine ⟨0, ⟨fun o g => ∃ i < d.n, o = [i] ∧ g = [], fun x y => D (x.headD 0) (y.headD 0)⟩, ?_, ?_, by simp⟩
      · exact .start (fun _ _ => Iff.rfl) (fun i j _ _ _ => rfl)
      · refine ⟨?_, fun i _ j _ _ _ _ => rfl⟩
        intro o g
        simp)
    (by
      rintro k D' s s' c1 c2 o1 o2 g1 g2 hi ⟨K, S, hS, hs, hK⟩ hM
      obtain ⟨T, h1, h2⟩ := hs.step hA hdm hD hi hS hM
      refine ⟨K + 1, T, h1, h2, ?_⟩
      have a1 := hi.count
      have a2 := (hM.inv A (by omega) hi).count
      omega)
  obtain ⟨K, S, hS, hs, hK⟩ := hp
  have := hi.count
  have hKe : K = n - 1 := by omega
  subst hKe
  rw [hdn] at hS hperm
  refine ⟨r, S, e, hperm, hlen, hS, (hs.seqs _ _).2 ⟨0, ?_, hi.zero, .inl ⟨ho, ?_⟩⟩⟩
  · have := h.holds.2.2; omega
  · rw [← ho, hl]

/-! ## The theorems -/

theorem runs_map (le : α → α → Bool) (level : α) (σ : Nat → Nat) : ∀ (xs : List Nat) (gs : List α),
    runs le level (xs.map σ) gs = (runs le level xs gs).map (List.map σ)
  | [], _ => rfl
  | [o], gs => by cases gs <;> rfl
  | o :: p :: t, [] => rfl
  | o :: p :: t, g :: gs => by
    have ih := runs_map le level σ (p :: t) gs
    simp only [List.map_cons, runs] at ih ⊢
    split
    · rw [ih]
      cases runs le level (p :: t) gs <;> rfl
    · rw [ih]
      rfl

/-- **C138.** The objects of a complete matrix without ties may be given in any order: with other names of the objects, the dendrogram
is the same one under these names, perhaps read from its other end. -/
theorem C138_order [LinearOrder α] {A : Arith α} (hA : Lawful A) {d d' : Matrix α} {m n : Nat} {D D' : Nat → Nat → α}
    (h : Filled A.zero d m n D) (h' : Filled A.zero d' m n D') (hD : ∀ i j, D i j = D j i) (hmn : n ≤ m + 1) (hd : Distinct D n)
    (ht : NoTies A.avg D n) {σ τ : Nat → Nat} (hσ : Renaming n σ τ) (hD' : ∀ i < n, ∀ j < n, D' i j = D (σ i) (σ j)) :
    ∃ r r', clusterObjects A d = .ok r ∧ clusterObjects A d' = .ok r' ∧ r.WF ∧ r'.WF ∧
      ((r'.order.map σ = r.order ∧ r'.levels = r.levels) ∨
        (r'.order.map σ = r.order.reverse ∧ r'.levels = r.levels.reverse)) := by
  obtain ⟨r, S, e, hp, hl, hS, hs⟩ := cluster_greedy hA h hD hmn
  have h'' : Filled A.zero d' m n (fun i j => D (σ i) (σ j)) := by
    refine ⟨h'.made, fun i j hr => ?_⟩
    have := (h'.shape hmn).1
    have hr2 := hr.2.2
    rw [h'.known i j hr, hD' i (by omega) j (by omega)]
  obtain ⟨r', S', e', hp', hl', hS', hs'⟩ := cluster_greedy hA h'' (fun i j => hD _ _) hmn
  have hag := hS.unique hA.avg hD hd ht (hS'.rename hσ fun _ _ => rfl)
  have hx : S.seqs (r'.order.map σ) r'.levels := by
    rw [hag.seqs]
    show S'.seqs ((r'.order.map σ).map τ) r'.levels
    rw [hσ.map_left]
    exact hs'
  have pS := hS.proper hD
  have ne : ∀ x l, S.seqs x l → x ≠ [] := pS.ne
  refine ⟨r, r', e, e', ⟨ne _ _ hs, hl⟩, ⟨fun hc => ne _ _ hx (by rw [hc]; rfl), hl'⟩, ?_⟩
  rcases pS.two _ _ _ _ hs hx with h1 | h1 | h1
  · exfalso
    obtain ⟨o, ho⟩ := List.exists_mem_of_ne_nil _ (ne _ _ hx)
    exact h1 o (hp.mem_iff.2 (List.mem_range.2 (pS.bound _ _ hx o ho))) ho
  · exact .inl h1
  · exact .inr h1

/-- **C138.** And at every level, for every minimum size, the clusters are the same ones. -/
theorem C138_clusters [LinearOrder α] {A : Arith α} (hA : Lawful A) {d d' : Matrix α} {m n : Nat} {D D' : Nat → Nat → α}
    (h : Filled A.zero d m n D) (h' : Filled A.zero d' m n D') (hD : ∀ i j, D i j = D j i) (hmn : n ≤ m + 1) (hd : Distinct D n)
    (ht : NoTies A.avg D n) {σ τ : Nat → Nat} (hσ : Renaming n σ τ) (hD' : ∀ i < n, ∀ j < n, D' i j = D (σ i) (σ j)) (level : α) (minSize : Int) :
    ∃ r r' cs cs', clusterObjects A d = .ok r ∧ clusterObjects A d' = .ok r' ∧
      cut A.le r level minSize = .ok cs ∧ cut A.le r' level minSize = .ok cs' ∧ cs'.length = cs.length ∧
      (∀ c' ∈ cs', ∃ c ∈ cs, (c'.map σ).Perm c) ∧ ∀ c ∈ cs, ∃ c' ∈ cs', (c'.map σ).Perm c := by
  obtain ⟨r, r', e, e', w, w', hor⟩ := C138_order hA h h' hD hmn hd ht hσ hD'
  refine ⟨r, r', _, _, e, e', cut_eq_runs w level minSize, cut_eq_runs w' level minSize, ?_⟩
  have hm := runs_map A.le level σ r'.order r'.levels
  have hfil : ∀ L : List (List Nat), (L.map (List.map σ)).filter (fun r => decide (minSize ≤ (r.length : Int))) =
      (L.filter fun r => decide (minSize ≤ (r.length : Int))).map (List.map σ) := by
    intro L
    rw [List.filter_map]
    simp [Function.comp_def]
  generalize hR' : (runs A.le level r'.order r'.levels).filter (fun r => decide (minSize ≤ (r.length : Int))) = R'
  generalize hR : (runs A.le level r.order r.levels).filter (fun r => decide (minSize ≤ (r.length : Int))) = R
  have key : R'.map (List.map σ) = R ∨ R'.map (List.map σ) = (R.map List.reverse).reverse := by
    rw [← hR', ← hfil, ← hm, ← hR]
    rcases hor with ⟨h1, h2⟩ | ⟨h1, h2⟩
    · rw [h1, h2]
      exact .inl rfl
    · right
      rw [h1, h2, runs_reverse _ rfl w.2, List.filter_reverse, List.filter_map]
      simp [Function.comp_def]
  refine ⟨?_, ?_, ?_⟩
  · rcases key with key | key
    · rw [← key]; simp
    · have := congrArg List.length key
      simpa using this
  · intro c' hc'
    have hc' : c'.map σ ∈ R'.map (List.map σ) := List.mem_map_of_mem (List.mem_reverse.1 hc')
    rcases key with key | key
    · exact ⟨_, List.mem_reverse.2 (key ▸ hc'), List.Perm.refl _⟩
    · rw [key, List.mem_reverse] at hc'
      obtain ⟨c, hc, e⟩ := List.mem_map.1 hc'
      exact ⟨c, List.mem_reverse.2 hc, e ▸ List.reverse_perm _⟩
  · intro c hc
    have hc := List.mem_reverse.1 hc
    rcases key with key | key
    · rw [← key] at hc
      obtain ⟨c', hc', e⟩ := List.mem_map.1 hc
      exact ⟨c', List.mem_reverse.2 hc', e ▸ List.Perm.refl _⟩
    · have : c.reverse ∈ R'.map (List.map σ) := by
        rw [key, List.mem_reverse]
        exact List.mem_map_of_mem hc
      obtain ⟨c', hc', e⟩ := List.mem_map.1 this
      exact ⟨c', List.mem_reverse.2 hc', e ▸ List.reverse_perm _⟩

theorem ratArith_lawful : Lawful ratArith where
  gt a b := by simp [ratArith]
  le a b := by simp [ratArith]
  avg a p b q := by
    show (a * p + b * q) / ((p + q : Nat) : Rat) = (b * q + a * p) / ((q + p : Nat) : Rat)
    rw [add_comm (a * p), Nat.add_comm]

theorem floatArith_lawful (R : Rounding 24) : Lawful (floatArith R) where
  gt a b := by simp [floatArith]
  le a b := by simp [floatArith]
  avg a p b q := by
    show R.rnd (R.rnd (R.rnd (a * R.rnd p) + R.rnd (b * R.rnd q)) / R.rnd ((p + q : Nat) : Rat)) =
      R.rnd (R.rnd (R.rnd (b * R.rnd q) + R.rnd (a * R.rnd p)) / R.rnd ((q + p : Nat) : Rat))
    rw [add_comm (R.rnd (a * R.rnd p)), Nat.add_comm]

/-- **C138** for `float` distances and any rounding mode. -/
theorem C138_float (R : Rounding 24) {d d' : Matrix Rat} {m n : Nat} {D D' : Nat → Nat → Rat} (h : Filled 0 d m n D)
    (h' : Filled 0 d' m n D') (hD : ∀ i j, D i j = D j i) (hmn : n ≤ m + 1) (hd : Distinct D n)
    (ht : NoTies (floatArith R).avg D n) {σ τ : Nat → Nat} (hσ : Renaming n σ τ) (hD' : ∀ i < n, ∀ j < n, D' i j = D (σ i) (σ j)) (level : Rat)
    (minSize : Int) :
    ∃ r r' cs cs', clusterObjects (floatArith R) d = .ok r ∧ clusterObjects (floatArith R) d' = .ok r' ∧
      cut (fun a b => decide (a ≤ b)) r level minSize = .ok cs ∧ cut (fun a b => decide (a ≤ b)) r' level minSize = .ok cs' ∧
      cs'.length = cs.length ∧ (∀ c' ∈ cs', ∃ c ∈ cs, (c'.map σ).Perm c) ∧ ∀ c ∈ cs, ∃ c' ∈ cs', (c'.map σ).Perm c :=
  C138_clusters (floatArith_lawful R) h h' hD hmn hd ht hσ hD' level minSize

/-- No two pairs of disjoint groups of objects have the same mean distance. -/
def Generic (D : Nat → Nat → Rat) (n : Nat) : Prop :=
  ∀ a b x y : List Nat, (∀ c ∈ [a, b, x, y], c ≠ [] ∧ c.Nodup ∧ ∀ o ∈ c, o < n) → Apart a b → Apart x y →
    mean D a b = mean D x y → (x.Perm a ∧ y.Perm b) ∨ (x.Perm b ∧ y.Perm a)

theorem Greedy.mean {D : Nat → Nat → Rat} (hD : ∀ i j, D i j = D j i) {n k : Nat} {S : Stage Rat}
    (h : Greedy ratArith.avg D n k S) : ∀ x lx y ly, S.seqs x lx → S.seqs y ly → Apart x y → S.dist x y = mean D x y := by
  induction h with
  | @start S h1 h2 =>
    intro x l y l' hx hy hxy
    obtain ⟨i, hi, rfl, rfl⟩ := (h1 x l).1 hx
    obtain ⟨j, hj, rfl, rfl⟩ := (h1 y l').1 hy
    have hij : i ≠ j := by
      rintro rfl
      exact hxy i (by simp) (by simp)
    rw [h2 i j hi hj hij]
    simp [Cluster.mean]
  | @join k S T a b la lb hS ha hb hab _ _ hp ih =>
    have pS := hS.proper hD
    have new : ∀ x lx c, S.seqs x lx → Apart x a → Apart x b → Same c (a ++ b) →
        ratArith.avg (S.dist x a) a.length (S.dist x b) b.length = Cluster.mean D x c := by
      intro x lx c hx h1 h2 hs
      rw [ih x lx a la hx ha h1, ih x lx b lb hx hb h2]
      have : Cluster.mean D x c = Cluster.mean D x (a ++ b) := mean_perm (List.Perm.refl _) (by
        rcases hs with rfl | rfl
        · exact List.Perm.refl _
        · exact List.reverse_perm _)
      rw [this, mean_merge (pS.ne _ _ hx) (pS.ne _ _ ha) (pS.ne _ _ hb)]
      rfl
    intro x l y l' hx hy hxy
    rcases hp.rev_same hx with h1 | ⟨h1, h2, h3⟩ <;> rcases hp.rev_same hy with h4 | ⟨h4, h5, h6⟩
    · exfalso
      have hne : x ≠ [] := h1.ne (by simp [pS.ne a la ha])
      exact (h1.trans h4.symm).not_apart hne hxy
    · rw [(hp.new y l' x h4 h5 h6 h1).2, new y l' x h4 h5 h6 h1, mean_comm hD]
    · rw [(hp.new x l y h1 h2 h3 h4).1, new x l y h1 h2 h3 h4]
    · rw [hp.old x l y l' h1 h4 h2 h3 h5 h6]
      exact ih x l y l' h1 h4 hxy

theorem Generic.noTies {D : Nat → Nat → Rat} (hD : ∀ i j, D i j = D j i) {n : Nat} (hg : Generic D n) : NoTies ratArith.avg D n := by
  intro k S hS a la b lb x lx y ly ha hb hx hy hab hxy h1 h2
  have pS := hS.proper hD
  have e : Cluster.mean D a b = Cluster.mean D x y := by
    rw [← hS.mean hD a la b lb ha hb hab, ← hS.mean hD x lx y ly hx hy hxy]
    exact le_antisymm (h1 x lx y ly hx hy hxy) (h2 a la b lb ha hb hab)
  have hall : ∀ c ∈ [a, b, x, y], c ≠ [] ∧ c.Nodup ∧ ∀ o ∈ c, o < n := by
    have : ∀ c l, S.seqs c l → c ≠ [] ∧ c.Nodup ∧ ∀ o ∈ c, o < n := fun c l h => ⟨pS.ne c l h, pS.nodup c l h, pS.bound c l h⟩
    intro c hc
    simp only [List.mem_cons, List.not_mem_nil, or_false] at hc
    rcases hc with rfl | rfl | rfl | rfl
    · exact this _ _ ha
    · exact this _ _ hb
    · exact this _ _ hx
    · exact this _ _ hy
  have same : ∀ c l c' l', S.seqs c l → S.seqs c' l' → c.Perm c' → Same c c' := by
    intro c l c' l' hc hc' hp
    rcases pS.two c' l' c l hc' hc with h | ⟨h, -⟩ | ⟨h, -⟩
    · exfalso
      obtain ⟨o, ho⟩ := List.exists_mem_of_ne_nil _ (pS.ne _ _ hc')
      exact h o ho (hp.mem_iff.2 ho)
    · exact .inl h
    · exact .inr h
  rcases hg a b x y hall hab hxy e with ⟨p1, p2⟩ | ⟨p1, p2⟩
  · exact .inl ⟨same _ _ _ _ hx ha p1, same _ _ _ _ hy hb p2⟩
  · exact .inr ⟨same _ _ _ _ hx hb p1, same _ _ _ _ hy ha p2⟩

theorem Generic.distinct {D : Nat → Nat → Rat} {n : Nat} (hg : Generic D n) : Distinct D n := by
  intro i j k l hi hj hk hl hij hkl e
  have hall : ∀ c ∈ [[i], [j], [k], [l]], c ≠ [] ∧ c.Nodup ∧ ∀ o ∈ c, o < n := by
    intro c hc
    simp only [List.mem_cons, List.not_mem_nil, or_false] at hc
    rcases hc with rfl | rfl | rfl | rfl <;> simpa
  have := hg [i] [j] [k] [l] hall (by intro o h1 h2; simp at h1 h2; omega) (by intro o h1 h2; simp at h1 h2; omega)
    (by simpa [Cluster.mean] using e)
  simp only [List.singleton_perm_singleton] at this
  rcases this with ⟨rfl, rfl⟩ | ⟨rfl, rfl⟩
  · exact .inl ⟨rfl, rfl⟩
  · exact .inr ⟨rfl, rfl⟩

/-- **C138** for exact arithmetic: if all mean distances of disjoint groups differ, the clusters do not depend on the order of objects. -/
theorem C138_exact {d d' : Matrix Rat} {m n : Nat} {D D' : Nat → Nat → Rat} (h : Filled 0 d m n D) (h' : Filled 0 d' m n D')
    (hD : ∀ i j, D i j = D j i) (hmn : n ≤ m + 1) (hg : Generic D n) {σ τ : Nat → Nat} (hσ : Renaming n σ τ)
    (hD' : ∀ i < n, ∀ j < n, D' i j = D (σ i) (σ j)) (level : Rat) (minSize : Int) :
    ∃ r r' cs cs', clusterObjects ratArith d = .ok r ∧ clusterObjects ratArith d' = .ok r' ∧
      cut (fun a b => decide (a ≤ b)) r level minSize = .ok cs ∧ cut (fun a b => decide (a ≤ b)) r' level minSize = .ok cs' ∧
      cs'.length = cs.length ∧ (∀ c' ∈ cs', ∃ c ∈ cs, (c'.map σ).Perm c) ∧ ∀ c ∈ cs, ∃ c' ∈ cs', (c'.map σ).Perm c :=
  C138_clusters ratArith_lawful h h' hD hmn hg.distinct (hg.noTies hD) hσ hD' level minSize

/-! ## Examples -/

/-- With three objects, different distances suffice, whatever the averages are. -/
theorem noTies_three [LinearOrder α] (avg : α → Nat → α → Nat → α) {D : Nat → Nat → α} (hD : ∀ i j, D i j = D j i)
    (hd : Distinct D 3) : NoTies avg D 3 := by
  have claim : ∀ k S, Greedy avg D 3 k S → k = 0 ∨ ∃ p q, ∀ x l, S.seqs x l → Same x p ∨ Same x q := by
    intro k S h
    induction h with
    | start => exact .inl rfl
    | @join k S T a b la lb hS ha hb hab _ _ hp ih =>
      right
      have pS := hS.proper hD
      rcases ih with rfl | ⟨p, q, hpq⟩
      · cases hS with
        | start h1 h2 =>
          obtain ⟨i, hi, rfl, rfl⟩ := (h1 a la).1 ha
          obtain ⟨j, hj, rfl, rfl⟩ := (h1 b lb).1 hb
          have hij : i ≠ j := by
            rintro rfl
            exact hab i (by simp) (by simp)
          refine ⟨[i] ++ [j], [3 - i - j], ?_⟩
          intro x l hx
          rcases hp.rev_same hx with h | ⟨h3, h4, h5⟩
          · exact .inl h
          · obtain ⟨o, ho, rfl, rfl⟩ := (h1 x l).1 h3
            have n1 : o ≠ i := fun e => h4 o (by simp) (by simp [e])
            have n2 : o ≠ j := fun e => h5 o (by simp) (by simp [e])
            exact .inr (.inl (by rw [show o = 3 - i - j by omega]))
      · refine ⟨a ++ b, a ++ b, ?_⟩
        intro x l hx
        rcases hp.rev_same hx with h | ⟨h3, h4, h5⟩
        · exact .inl h
        · exfalso
          have n1 : ∀ c, Same a c → Same b c → False := fun c e1 e2 => (e1.trans e2.symm).not_apart (pS.ne _ _ ha) hab
          have n2 : ∀ c, Same x c → Same a c → False := fun c e1 e2 => (e1.trans e2.symm).not_apart (pS.ne _ _ h3) h4
          have n3 : ∀ c, Same x c → Same b c → False := fun c e1 e2 => (e1.trans e2.symm).not_apart (pS.ne _ _ h3) h5
          rcases hpq a la ha with e1 | e1 <;> rcases hpq b lb hb with e2 | e2 <;> rcases hpq x l h3 with e3 | e3
          · exact n1 _ e1 e2
          · exact n1 _ e1 e2
          · exact n2 _ e3 e1
          · exact n3 _ e3 e2
          · exact n3 _ e3 e2
          · exact n2 _ e3 e1
          · exact n1 _ e1 e2
          · exact n1 _ e1 e2
  intro k S hS a la b lb x lx y ly ha hb hx hy hab hxy h1 h2
  have pS := hS.proper hD
  rcases claim k S hS with rfl | ⟨p, q, hpq⟩
  · cases hS with
    | start s1 s2 =>
      obtain ⟨i, hi, rfl, rfl⟩ := (s1 a la).1 ha
      obtain ⟨j, hj, rfl, rfl⟩ := (s1 b lb).1 hb
      obtain ⟨u, hu, rfl, rfl⟩ := (s1 x lx).1 hx
      obtain ⟨v, hv, rfl, rfl⟩ := (s1 y ly).1 hy
      have hij : i ≠ j := by
        rintro rfl
        exact hab i (by simp) (by simp)
      have huv : u ≠ v := by
        rintro rfl
        exact hxy u (by simp) (by simp)
      have e := le_antisymm (h1 _ _ _ _ hx hy hxy) (h2 _ _ _ _ ha hb hab)
      rw [s2 i j hi hj hij, s2 u v hu hv huv] at e
      rcases hd i j u v hi hj hu hv hij huv e with ⟨rfl, rfl⟩ | ⟨rfl, rfl⟩
      · exact .inl ⟨.inl rfl, .inl rfl⟩
      · exact .inr ⟨.inl rfl, .inl rfl⟩
  · have n1 : ∀ c, Same a c → Same b c → False := fun c e1 e2 => (e1.trans e2.symm).not_apart (pS.ne _ _ ha) hab
    have n2 : ∀ c, Same x c → Same y c → False := fun c e1 e2 => (e1.trans e2.symm).not_apart (pS.ne _ _ hx) hxy
    rcases hpq a la ha with e1 | e1 <;> rcases hpq b lb hb with e2 | e2
    · exact (n1 _ e1 e2).elim
    · rcases hpq x lx hx with e3 | e3 <;> rcases hpq y ly hy with e4 | e4
      · exact (n2 _ e3 e4).elim
      · exact .inl ⟨e3.trans e1.symm, e4.trans e2.symm⟩
      · exact .inr ⟨e3.trans e2.symm, e4.trans e1.symm⟩
      · exact (n2 _ e3 e4).elim
    · rcases hpq x lx hx with e3 | e3 <;> rcases hpq y ly hy with e4 | e4
      · exact (n2 _ e3 e4).elim
      · exact .inr ⟨e3.trans e2.symm, e4.trans e1.symm⟩
      · exact .inl ⟨e3.trans e1.symm, e4.trans e2.symm⟩
      · exact (n2 _ e3 e4).elim
    · exact (n1 _ e1 e2).elim

/-- Distances of three objects: `x` between 0 and 1, `y` between 0 and 2, `z` between 1 and 2. -/
def three (x y z : Rat) (i j : Nat) : Rat := if i = j then 0 else if i + j = 1 then x else if i + j = 2 then y else z

theorem three_symm (x y z : Rat) (i j : Nat) : three x y z i j = three x y z j i := by
  unfold three
  rw [Nat.add_comm j i]
  by_cases h : i = j
  · simp [h]
  · simp [h, Ne.symm h]

theorem three_filled (x y z : Rat) : Filled 0 ⟨2, 3, [some x, some y, none, some z]⟩ 2 3 (three x y z) := by
  refine ⟨⟨⟨2, 3, [none, none, none, none]⟩, [(0, 1, x), (0, 2, y), (1, 2, z)], by decide +kernel, ?_, by with_unfolding_all rfl⟩, ?_⟩
  · intro op hop
    simp only [List.mem_cons, List.not_mem_nil, or_false] at hop
    rcases hop with rfl | rfl | rfl <;> exact .inr (by unfold InRange; simp)
  · intro i j hr
    have h1 : max i j < 3 := hr.2.2
    have hne := hr.1
    have : (i = 0 ∨ i = 1 ∨ i = 2) ∧ (j = 0 ∨ j = 1 ∨ j = 2) := by omega
    obtain ⟨rfl | rfl | rfl, rfl | rfl | rfl⟩ := this <;> first | exact absurd rfl hne | with_unfolding_all rfl

/-- The objects 0 and 2 change places. -/
def swap02 (i : Nat) : Nat := if i = 0 then 2 else if i = 2 then 0 else i

theorem swap02_renaming : Renaming 3 swap02 swap02 := by
  refine ⟨fun i => ?_, fun i => ?_, fun i => ?_⟩ <;> unfold swap02 <;> split <;> (try split) <;> (try split) <;> (try split) <;> omega

theorem three_swap (x y z : Rat) (i j : Nat) (hi : i < 3) (hj : j < 3) :
    three z y x i j = three x y z (swap02 i) (swap02 j) := by
  have : (i = 0 ∨ i = 1 ∨ i = 2) ∧ (j = 0 ∨ j = 1 ∨ j = 2) := by omega
  obtain ⟨rfl | rfl | rfl, rfl | rfl | rfl⟩ := this <;> rfl

theorem three_distinct : Distinct (three 1 2 4) 3 := by
  intro i j k l hi hj hk hl hij hkl e
  unfold three at e
  rw [if_neg hij, if_neg hkl] at e
  split at e <;> split at e <;> (try split at e) <;> (try split at e) <;> first | omega | (exfalso; revert e; norm_num)

/-- The hypotheses of `C138_float` are met, for every rounding mode. -/
example (R : Rounding 24) : ∃ d d', Filled 0 d 2 3 (three 1 2 4) ∧ Filled 0 d' 2 3 (three 4 2 1) ∧ Distinct (three 1 2 4) 3 ∧
    NoTies (floatArith R).avg (three 1 2 4) 3 ∧ Renaming 3 swap02 swap02 ∧
    (∀ i < 3, ∀ j < 3, three 4 2 1 i j = three 1 2 4 (swap02 i) (swap02 j)) ∧
    clusterObjects ratArith d = .ok ⟨[1, 0, 2], [1, 3]⟩ ∧ clusterObjects ratArith d' = .ok ⟨[0, 2, 1], [3, 1]⟩ :=
  ⟨_, _, three_filled 1 2 4, three_filled 4 2 1, three_distinct, noTies_three _ (three_symm 1 2 4) three_distinct, swap02_renaming,
    fun i hi j hj => three_swap 1 2 4 i j hi hj, by decide +kernel, by decide +kernel⟩

/-- All sequences of different numbers below three. -/
def seqs3 : List (List Nat) := [[0], [1], [2], [0, 1], [1, 0], [0, 2], [2, 0], [1, 2], [2, 1], [0, 1, 2], [0, 2, 1], [1, 0, 2], [1, 2, 0],
  [2, 0, 1], [2, 1, 0]]

theorem mem_seqs3 {c : List Nat} (h : c ≠ [] ∧ c.Nodup ∧ ∀ o ∈ c, o < 3) : c ∈ seqs3 := by
  obtain ⟨h1, h2, h3⟩ := h
  match c, h1 with
  | [a], _ =>
    have := h3 a (by simp)
    have : a = 0 ∨ a = 1 ∨ a = 2 := by omega
    rcases this with rfl | rfl | rfl <;> decide
  | [a, b], _ =>
    have l1 := h3 a (by simp)
    have l2 := h3 b (by simp)
    have : (a = 0 ∨ a = 1 ∨ a = 2) ∧ (b = 0 ∨ b = 1 ∨ b = 2) := by omega
    obtain ⟨rfl | rfl | rfl, rfl | rfl | rfl⟩ := this <;> revert h2 <;> decide
  | [a, b, c], _ =>
    have l1 := h3 a (by simp)
    have l2 := h3 b (by simp)
    have l3 := h3 c (by simp)
    have : (a = 0 ∨ a = 1 ∨ a = 2) ∧ (b = 0 ∨ b = 1 ∨ b = 2) ∧ (c = 0 ∨ c = 1 ∨ c = 2) := by omega
    obtain ⟨rfl | rfl | rfl, rfl | rfl | rfl, rfl | rfl | rfl⟩ := this <;> revert h2 <;> decide
  | a :: b :: c :: d :: t, _ =>
    exfalso
    have l1 := h3 a (by simp)
    have l2 := h3 b (by simp)
    have l3 := h3 c (by simp)
    have l4 := h3 d (by simp)
    simp only [List.nodup_cons, List.mem_cons, not_or] at h2
    omega

/-- The hypothesis of `C138_exact` is met. -/
example : Generic (three 1 2 4) 3 := by
  have key : ∀ a ∈ seqs3, ∀ b ∈ seqs3, Apart a b → ∀ x ∈ seqs3, ∀ y ∈ seqs3, Apart x y → mean (three 1 2 4) a b = mean (three 1 2 4) x y →
      (x.Perm a ∧ y.Perm b) ∨ (x.Perm b ∧ y.Perm a) := by decide +kernel
  intro a b x y h hab hxy e
  exact key a (mem_seqs3 (h a (by simp))) b (mem_seqs3 (h b (by simp))) hab x (mem_seqs3 (h x (by simp))) y (mem_seqs3 (h y (by simp))) hxy e

/-- **C138, finding.** With ties the order matters: here the objects 0 and 2 have the same distances to all others, so that the matrix
does not change when they change places; but 0 is in a cluster with 1 and 2 is not. -/
theorem C138_not_ties : ∃ d, Filled 0 d 2 3 (three 1 3 1) ∧ Renaming 3 swap02 swap02 ∧
    (∀ i < 3, ∀ j < 3, three 1 3 1 i j = three 1 3 1 (swap02 i) (swap02 j)) ∧
    ∃ r cs, clusterObjects ratArith d = .ok r ∧ cut ratArith.le r 1 1 = .ok cs ∧ ∃ c ∈ cs, ∀ c' ∈ cs, ¬ (c'.map swap02).Perm c := by
  refine ⟨_, three_filled 1 3 1, swap02_renaming, fun i hi j hj => three_swap 1 3 1 i j hi hj, ⟨[0, 1, 2], [1, 2]⟩, [[2], [0, 1]], ?_, ?_, ?_⟩
  · decide +kernel
  · decide +kernel
  · decide +kernel

end Satyr.Cluster
