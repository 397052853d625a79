import Verif.Cluster.Model
import Verif.Distances.Spec
import Mathlib.Algebra.Field.Rat
/-!
# Specification vocabulary for clustering (C10 - C12, C59)
-/
namespace Satyr.Cluster
open Satyr.Distances

/-- A dendrogram over objects `order` has one merge level between any two neighbours. -/
def Dendrogram.WF {α} (d : Dendrogram α) : Prop := d.order ≠ [] ∧ d.levels.length + 1 = d.order.length

instance {α} (d : Dendrogram α) : Decidable d.WF := by unfold Dendrogram.WF; infer_instance

/-- The merge level between positions `i` and `i + 1` exists and is `≤ level`. -/
def Joined {α} (le : α → α → Bool) (d : Dendrogram α) (level : α) (i : Nat) : Prop :=
  ∃ l, d.levels[i]? = some l ∧ le l level = true

/-- Positions `a..b` are a maximal run of positions joined at `level`. -/
structure MaxRun {α} (le : α → α → Bool) (d : Dendrogram α) (level : α) (a b : Nat) : Prop where
  ordered : a ≤ b
  inside : b < d.order.length
  joined : ∀ i, a ≤ i → i < b → Joined le d level i
  left : a = 0 ∨ ¬ Joined le d level (a - 1)
  right : ¬ Joined le d level b

/-- The objects at positions `a..b`. -/
def slice {α} (d : Dendrogram α) (a b : Nat) : List Nat := (d.order.drop a).take (b + 1 - a)

/-- The matrix `d` has been created and then filled through the API such that the distance of every stored pair
is known; `D` are the distances. -/
structure Filled {α} (zero : α) (d : Matrix α) (m n : Nat) (D : Nat → Nat → α) : Prop where
  made : ∃ d₀ ops, new α m n = .ok d₀ ∧ (∀ op ∈ ops, op.1 = op.2.1 ∨ InRange d₀.m d₀.n op.1 op.2.1) ∧
    runSets d₀ ops = .ok d
  known : ∀ i j, InRange d.m d.n i j → get zero d i j = .ok (D i j)

/-- Mean distance between the members of two clusters. -/
def mean (D : Nat → Nat → Rat) (a b : List Nat) : Rat :=
  (a.map fun x => (b.map fun y => D x y).sum).sum / ((a.length : Rat) * b.length)

/-- `Tree D order levels`: the sequence of objects is hierarchically built; every cluster is a single object, or it
consists of two neighbouring clusters whose mean distance is the merge level noted between them, and no level
inside of the two is higher. -/
inductive Tree (D : Nat → Nat → Rat) : List Nat → List Rat → Prop
  | single (o : Nat) : Tree D [o] []
  | merge {a b : List Nat} {la lb : List Rat} : Tree D a la → Tree D b lb →
      (∀ l ∈ la ++ lb, l ≤ mean D a b) → Tree D (a ++ b) (la ++ mean D a b :: lb)

/-- Exact arithmetic on rationals. -/
def ratArith : Arith Rat where
  zero := 0
  gt a b := decide (a > b)
  le a b := decide (a ≤ b)
  avg a p b q := (a * p + b * q) / ((p + q : Nat) : Rat)

end Satyr.Cluster
