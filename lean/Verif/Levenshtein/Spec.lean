/-!
# Edit distance, specified independently of any algorithm (C05, C06)
-/
namespace Satyr.Levenshtein

/-- One block of an alignment of two sequences. -/
inductive Block (F : Type) where
  /-- `x` is matched with `y`, at no cost. -/
  | keep (x y : F)
  /-- `x` is replaced by `y`. -/
  | subst (x y : F)
  /-- `x` is deleted. -/
  | del (x : F)
  /-- `y` is inserted. -/
  | ins (y : F)
  /-- The adjacent `x₁ x₂` are swapped and matched with `y₁ y₂`. -/
  | swap (x₁ x₂ y₁ y₂ : F)

namespace Block
variable {F : Type}

/-- What the block consumes of the first sequence. -/
def src : Block F → List F
  | keep x _ => [x] | subst x _ => [x] | del x => [x] | ins _ => [] | swap x₁ x₂ _ _ => [x₁, x₂]

/-- What the block produces of the second sequence. -/
def dst : Block F → List F
  | keep _ y => [y] | subst _ y => [y] | del _ => [] | ins y => [y] | swap _ _ y₁ y₂ => [y₁, y₂]

/-- Every operation costs 1, keeping costs nothing. -/
def cost : Block F → Nat
  | keep _ _ => 0 | _ => 1

/-- Only equal frames may be kept; swaps are allowed only in the Damerau variant and only if the swapped frames
are equal to their partners. -/
def Ok (eq : F → F → Bool) (swaps : Bool) : Block F → Prop
  | keep x y => eq x y = true
  | swap x₁ x₂ y₁ y₂ => swaps = true ∧ eq x₂ y₁ = true ∧ eq x₁ y₂ = true
  | _ => True

end Block

/-- `a` can be aligned with `b` using operations of total cost `k`. -/
def Alignable {F : Type} (eq : F → F → Bool) (swaps : Bool) (a b : List F) (k : Nat) : Prop :=
  ∃ bs : List (Block F), (∀ B ∈ bs, B.Ok eq swaps) ∧ bs.flatMap Block.src = a ∧ bs.flatMap Block.dst = b ∧
    (bs.map Block.cost).sum = k

/-- `k` is the least number with property `P`. -/
def IsLeast' (P : Nat → Prop) (k : Nat) : Prop := P k ∧ ∀ k', P k' → k ≤ k'

/-- A single insertion, deletion or substitution anywhere in a sequence. -/
inductive Step {F : Type} : List F → List F → Prop where
  | ins (p s : List F) (y : F) : Step (p ++ s) (p ++ y :: s)
  | del (p s : List F) (x : F) : Step (p ++ x :: s) (p ++ s)
  | subst (p s : List F) (x y : F) : Step (p ++ x :: s) (p ++ y :: s)

/-- `k` single edits lead from `a` to `b`. -/
inductive Steps {F : Type} : Nat → List F → List F → Prop where
  | refl (a) : Steps 0 a a
  | step {k a b c} : Step a b → Steps k b c → Steps (k + 1) a c

/-- Two sequences have the same length and pairwise equal frames. -/
inductive Same {F : Type} (eq : F → F → Bool) : List F → List F → Prop where
  | nil : Same eq [] []
  | cons {x y a b} : eq x y = true → Same eq a b → Same eq (x :: a) (y :: b)

end Satyr.Levenshtein
