import Verif.Levenshtein.Props
import Verif.Metrics.Jaccard
/-!
# The metrics depend only on which frames are the same

If the frames are images `φ p` of positions `p`, a metric of the frames is the metric of the positions, with positions
compared by their frames.
-/
namespace Satyr.Levenshtein
variable {F P : Type} (eq : F → F → Bool) (φ : P → F) (t : Bool)

/-- Positions compared by their frames. -/
def pull (eq : F → F → Bool) (φ : P → F) : P → P → Bool := fun p q => eq (φ p) (φ q)

theorem cell_map (m i j : Nat) (c c2 : P) (prev prev2 : Option P) (s : St) :
    cell eq t m i j (φ c) (φ c2) (prev.map φ) (prev2.map φ) s = cell (pull eq φ) t m i j c c2 prev prev2 s := by
  have ht : ∀ dl d2 cost, transpose eq t i j dl d2 cost (φ c) (φ c2) (prev.map φ) (prev2.map φ) =
      transpose (pull eq φ) t i j dl d2 cost c c2 prev prev2 := by
    intro dl d2 cost
    unfold transpose
    cases prev <;> cases prev2 <;> rfl
  unfold cell
  simp only [ht]
  rfl

theorem inner_map (m j : Nat) (c2 : P) (prev2 : Option P) : ∀ (l : List P) (i : Nat) (prev : Option P) (s : St),
    inner eq t m j (φ c2) (prev2.map φ) (l.map φ) i (prev.map φ) s =
      (inner (pull eq φ) t m j c2 prev2 l i prev s).bind fun r => .ok (r.1, r.2.map φ) := by
  intro l
  induction l with
  | nil => intro i prev s; rfl
  | cons c l ih =>
    intro i prev s
    rw [List.map_cons, inner, inner, cell_map]
    cases cell (pull eq φ) t m i j c c2 prev prev2 s with
    | ok s => exact ih (i + 1) (some c) s
    | abort => rfl
    | ub => rfl

theorem outer_map (m : Nat) (a : List P) : ∀ (l : List P) (j : Nat) (prev prev2 : Option P) (s : St),
    outer eq t m (a.map φ) (l.map φ) j (prev.map φ) (prev2.map φ) s = outer (pull eq φ) t m a l j prev prev2 s := by
  intro l
  induction l with
  | nil => intro j prev prev2 s; rfl
  | cons c l ih =>
    intro j prev prev2 s
    rw [List.map_cons, outer, outer, inner_map]
    cases inner (pull eq φ) t m j c prev2 a 1 prev s with
    | ok r => exact ih (j + 1) r.2 (some c) r.1
    | abort => rfl
    | ub => rfl

theorem distance_map (a b : List P) : distance eq t (a.map φ) (b.map φ) = distance (pull eq φ) t a b := by
  have := outer_map eq φ t (a.length + 1) a b 1 none none (initial (a.length + 1) (b.length + 1))
  simp only [Option.map_none] at this
  unfold distance rawDistance
  simp only [List.length_map, this]

end Satyr.Levenshtein

namespace Satyr.Metrics
variable {F P : Type} (eq : F → F → Bool) (φ : P → F)
open Satyr.Levenshtein (pull)

theorem contains_map (l : List P) (x : P) : contains eq (l.map φ) (φ x) = contains (pull eq φ) l x := by
  induction l with
  | nil => rfl
  | cons y l ih => rw [List.map_cons, contains, contains, ih]; rfl

theorem jaccardLoop1_map (b : List P) (a : List P) : ∀ c,
    jaccardLoop1 eq (b.map φ) (a.map φ) c = jaccardLoop1 (pull eq φ) b a c := by
  induction a with
  | nil => intro c; rfl
  | cons x a ih => intro c; rw [List.map_cons, jaccardLoop1, jaccardLoop1]; simp only [contains_map, ih]

theorem jaccardLoop2_map (a : List P) : ∀ c, jaccardLoop2 eq (a.map φ) c = jaccardLoop2 (pull eq φ) a c := by
  induction a with
  | nil => intro c; rfl
  | cons x a ih => intro c; rw [List.map_cons, jaccardLoop2, jaccardLoop2]; simp only [contains_map, ih]

theorem jaccard_map (a b : List P) : jaccard eq (a.map φ) (b.map φ) = jaccard (pull eq φ) a b := by
  unfold jaccard; rw [jaccardLoop1_map, jaccardLoop2_map]

/-! The Jaccard distance never compares a position with itself. -/

variable {e e' : P → P → Bool}

theorem contains_congr (h : ∀ p q, p ≠ q → e p q = e' p q) (l : List P) (x : P) (hx : x ∉ l) :
    contains e l x = contains e' l x := by
  induction l with
  | nil => rfl
  | cons y l ih =>
    simp only [List.mem_cons, not_or] at hx
    rw [contains, contains, ih hx.2, h y x (fun hh => hx.1 hh.symm)]

theorem jaccardLoop1_congr (h : ∀ p q, p ≠ q → e p q = e' p q) (b a : List P) (ha : a.Nodup) (hd : ∀ x ∈ a, x ∉ b) : ∀ c,
    jaccardLoop1 e b a c = jaccardLoop1 e' b a c := by
  induction a with
  | nil => intro c; rfl
  | cons x a ih =>
    intro c
    rw [List.nodup_cons] at ha
    rw [jaccardLoop1, jaccardLoop1, contains_congr h a x ha.1, contains_congr h b x (hd x (by simp))]
    simp only [ih ha.2 (fun y hy => hd y (by simp [hy]))]

theorem jaccardLoop2_congr (h : ∀ p q, p ≠ q → e p q = e' p q) (a : List P) (ha : a.Nodup) : ∀ c,
    jaccardLoop2 e a c = jaccardLoop2 e' a c := by
  induction a with
  | nil => intro c; rfl
  | cons x a ih =>
    intro c
    rw [List.nodup_cons] at ha
    rw [jaccardLoop2, jaccardLoop2, contains_congr h a x ha.1]
    simp only [ih ha.2]

theorem jaccard_congr (h : ∀ p q, p ≠ q → e p q = e' p q) (a b : List P) (ha : a.Nodup) (hb : b.Nodup)
    (hd : ∀ x ∈ a, x ∉ b) : jaccard e a b = jaccard e' a b := by
  unfold jaccard; rw [jaccardLoop1_congr h b a ha hd, jaccardLoop2_congr h b hb]

/-- Symmetry of the Jaccard distance on positions, for a comparison that is symmetric and transitive. -/
theorem jaccard_positions_symm [DecidableEq P] (hs : ∀ x y, e x y = true → e y x = true)
    (ht : ∀ x y z, e x y = true → e y z = true → e x z = true) (a b : List P) (ha : a.Nodup) (hb : b.Nodup)
    (hd : ∀ x ∈ a, x ∉ b) : jaccard e a b = jaccard e b a := by
  classical
  let e' : P → P → Bool := fun p q => e p q || decide (p = q)
  have he : ∀ p q, p ≠ q → e p q = e' p q := by intro p q h; simp [e', h]
  have tr : ∀ x y z, e' x y = true → e' y z = true → e' x z = true := by
    intro x y z h1 h2
    simp only [e', Bool.or_eq_true, decide_eq_true_eq] at h1 h2 ⊢
    rcases h1 with h1 | rfl
    · rcases h2 with h2 | rfl
      · exact Or.inl (ht x y z h1 h2)
      · exact Or.inl h1
    · exact h2
  have sy : ∀ x y, e' x y = true → e' y x = true := by
    intro x y h1
    simp only [e', Bool.or_eq_true, decide_eq_true_eq] at h1 ⊢
    rcases h1 with h1 | rfl
    · exact Or.inl (hs _ _ h1)
    · exact Or.inr rfl
  have hk : ByKey e' (fun p => e' p) := by
    intro x y
    constructor
    · intro h
      funext z
      rw [Bool.eq_iff_iff]
      exact ⟨fun h' => tr _ _ _ (sy _ _ h) h', fun h' => tr _ _ _ h h'⟩
    · intro h
      have h' : e' x = e' y := h
      rw [h']
      simp [e']
  rw [jaccard_congr he a b ha hb hd, jaccard_congr he b a hb ha (fun x hx hx' => hd x hx' hx)]
  exact C07_symmetric hk a b

end Satyr.Metrics
