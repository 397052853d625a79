import Verif.Distances.Model
/-!
# Specification vocabulary for the distance matrix (C01 - C04)
-/
namespace Satyr.Distances

/-- An unordered pair of different indices that a matrix with `m` rows and `n` columns stores. -/
def InRange (m n i j : Nat) : Prop := i ≠ j ∧ min i j < m ∧ max i j < n

instance (m n i j) : Decidable (InRange m n i j) := by unfold InRange; infer_instance

/-- The value most recently set for the unordered pair `{i, j}` in a history of `set i j v` calls
(oldest call first). -/
def lastSet {α} : List (Nat × Nat × α) → Nat → Nat → Option α
  | [], _, _ => none
  | (a, b, v) :: rest, i, j =>
    match lastSet rest i j with
    | some w => some w
    | none => if (a = i ∧ b = j) ∨ (a = j ∧ b = i) then some v else none

/-- Run a history of `sr_distances_set_distance` calls. -/
def runSets {α} (d : Matrix α) (ops : List (Nat × Nat × α)) : Out (Matrix α) :=
  ops.foldlM (fun d op => set d op.1 op.2.1 op.2.2) d

/-- The pairs whose distance is computed by a part: run the part on the "threads" `0, 1, 2, ...` with the
"distance" of `i` and `j` being the pair `(i, j)` itself. -/
def visited (p : Part (Nat × Nat)) : Out (List (Nat × Nat)) := do
  let p' ← partCompute (fun _ i j => (i, j)) (fun _ => 0) (List.range p.n) p
  .ok (p'.distances.getD [])

/-- Create, compute all parts, merge. -/
def splitComputeMerge {α T} (dist : DistType → T → T → α) (checksum : List T → Nat) (threads : List T)
    (m n : Nat) (ty : DistType) (nparts : Nat) : Out (Option (Matrix α)) := do
  let ps ← partCreate α m n ty nparts
  let cs ← ps.mapM (partCompute dist checksum threads)
  partMerge cs

/-- The array of distances, if any, has the length the part declares. -/
def Part.Complete {α} (p : Part α) : Prop := ∀ ds, p.distances = some ds → ds.length = p.len

/-- `p` was completed by `sr_distances_part_compute` on some array of threads. -/
def Computed {α T} (dist : DistType → T → T → α) (checksum : List T → Nat) (threads : List T)
    (p : Part α) : Prop := ∃ p₀, partCompute dist checksum threads p₀ = .ok p

end Satyr.Distances
