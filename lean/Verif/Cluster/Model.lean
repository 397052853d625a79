import Verif.Distances.Model
/-!
# Model of hierarchical clustering (lib/cluster.c)

`float` is an arbitrary type `α` with the operations the code uses on it, bundled in `Arith`. Nothing is assumed
about them, so IEEE comparisons (NaN included) are covered where a theorem has no hypothesis on `Arith`.

`struct cluster` is its list of objects (`size` is the length; `cluster_add_index`, `cluster_merge`,
`cluster_reverse`, `cluster_clean`, lib/cluster.c:53-105, are list operations; the heap array that
grows is in `Verif.Cluster.ArrayModel`). The arrays `clusters[n]` and `merge_levels[n]` are functions on indices; indices that come from data
(the objects) are checked against `n`, indices that are loop variables are below `n` by construction.
-/
namespace Satyr.Cluster
open Satyr.Distances

/-- The operations on `float` used by the clustering. `avg a p b q` is `(a * p + b * q) / (p + q)`
(lib/cluster.c:191). -/
structure Arith (α : Type) where
  zero : α
  gt : α → α → Bool
  le : α → α → Bool
  avg : α → Nat → α → Nat → α

/-- Array update. -/
def upd {β : Type} (f : Nat → β) (i : Nat) (v : β) : Nat → β := fun k => if k = i then v else f k

/-- Local variables of `sr_distances_cluster_objects` that survive an iteration of the main loop. -/
structure St (α : Type) where
  dist : Matrix α
  clusters : Nat → List Nat
  levels : Nat → Option α

variable {α : Type} (A : Arith α)

/-- Search for the two nearest clusters (lib/cluster.c:140-161); `none` is `first == true`. -/
def findMin (d : Matrix α) (cl : Nat → List Nat) (m n : Nat) : Out (Option (α × Nat × Nat)) :=
  (loopPairs m n).foldlM (fun acc (ij : Nat × Nat) =>
    if cl ij.1 = [] ∨ cl ij.2 = [] then .ok acc else do
      let dist ← get A.zero d ij.1 ij.2
      match acc with
      | none => .ok (some (dist, ij.1, ij.2))
      | some (mn, c) => .ok (if A.gt mn dist then some (dist, ij.1, ij.2) else some (mn, c))) none

/-- Body of the distance update (lib/cluster.c:168-195). -/
def updateStep (cl : Nat → List Nat) (m c1 c2 : Nat) (d : Matrix α) (i : Nat) : Out (Matrix α) :=
  if cl i = [] ∨ i = c1 ∨ i = c2 then .ok d
  else if ¬ (c2 < m ∨ i < m) then .ok d
  else do
    let d0 ← get A.zero d i c1
    let d1 ← get A.zero d i c2
    set d i c1 (A.avg d0 (cl c1).length d1 (cl c2).length)

/-- Distance update (lib/cluster.c:165-196). -/
def updateDist (cl : Nat → List Nat) (m n c1 c2 : Nat) (d : Matrix α) : Out (Matrix α) :=
  (List.range n).foldlM (updateStep A cl m c1 c2) d

/-- `objects[0]` and `objects[size - 1]`; undefined for an empty cluster. -/
def ends (c : List Nat) : Out (Nat × Nat) :=
  match c.head?, c.getLast? with
  | some a, some b => .ok (a, b)
  | _, _ => .ub

/-- Whether to reverse the two sequences (lib/cluster.c:198-226). `d` is the original matrix. -/
def reversals (d : Matrix α) (m n : Nat) (a b : List Nat) : Out (Bool × Bool) :=
  if m + 1 = n then do
    let e1 ← ends a
    let e2 ← ends b
    let d0 ← get A.zero d e1.1 e2.1
    let d1 ← get A.zero d e1.2 e2.1
    let d2 ← get A.zero d e1.1 e2.2
    let d3 ← get A.zero d e1.2 e2.2
    if A.le d1 d0 && A.le d1 d2 && A.le d1 d3 then .ok (false, false)
    else if A.le d0 d1 && A.le d0 d2 && A.le d0 d3 then .ok (true, false)
    else if A.le d2 d0 && A.le d2 d1 && A.le d2 d3 then .ok (true, true)
    else .ok (false, true)
  else .ok (false, false)

/-- Read of `merge_levels[o]`; uninitialised or out of bounds is undefined behaviour. -/
def readLevel (n : Nat) (lv : Nat → Option α) (o : Nat) : Out α :=
  if o < n then (match lv o with | some v => .ok v | none => .ub) else .ub

/-- Write of `merge_levels[o]`. -/
def writeLevel (n : Nat) (lv : Nat → Option α) (o : Nat) (v : α) : Out (Nat → Option α) :=
  if o < n then .ok (upd lv o (some v)) else .ub

/-- Shift of the merge levels before a reversal (lib/cluster.c:232-234 and 239-241). -/
def shiftLevels (n : Nat) : List Nat → (Nat → Option α) → Out (Nat → Option α)
  | a :: b :: rest, lv => do
    let v ← readLevel n lv b
    let lv ← writeLevel n lv a v
    shiftLevels n (b :: rest) lv
  | _, lv => .ok lv

/-- `if (reverse) { shift; cluster_reverse }` (lib/cluster.c:230-243). -/
def maybeReverse (n : Nat) (rev : Bool) (c : List Nat) (lv : Nat → Option α) :
    Out (List Nat × (Nat → Option α)) :=
  if rev then do
    let lv ← shiftLevels n c lv
    .ok (c.reverse, lv)
  else .ok (c, lv)

/-- One merge (lib/cluster.c:130-251). -/
def mergeOnce (orig : Matrix α) (m n : Nat) (s : St α) : Out (St α) := do
  match ← findMin A s.dist s.clusters m n with
  | none => .abort
  | some (mn, c1, c2) =>
    if ¬ (c1 < c2) then .abort else do
    let d ← updateDist A s.clusters m n c1 c2 s.dist
    let (r1, r2) ← reversals A orig m n (s.clusters c1) (s.clusters c2)
    let (o1, lv) ← maybeReverse n r1 (s.clusters c1) s.levels
    let (o2, lv) ← maybeReverse n r2 (s.clusters c2) lv
    let e2 ← ends o2
    let lv ← writeLevel n lv e2.1 mn
    .ok { dist := d, clusters := upd (upd s.clusters c1 (o1 ++ o2)) c2 [], levels := lv }

/-- `struct sr_dendrogram` (include/cluster.h); `size` is the length of `order`. -/
structure Dendrogram (α : Type) where
  order : List Nat
  levels : List α
  deriving Repr, DecidableEq

/-- The `k` merges (lib/cluster.c:130). -/
def mergeLoop (orig : Matrix α) (m n : Nat) : Nat → St α → Out (St α)
  | 0, s => .ok s
  | k + 1, s => do
    let s ← mergeOnce A orig m n s
    mergeLoop orig m n k s

/-- `sr_distances_cluster_objects` (lib/cluster.c:107-265). The result loops (255-259) read `n` objects of
cluster 0. -/
def clusterObjects (d : Matrix α) : Out (Dendrogram α) := do
  let m := d.m
  let n := d.n
  if n = 0 then .abort else do
  let cd ← dup d
  let s ← mergeLoop A d m n (n - 1) { dist := cd, clusters := fun i => [i], levels := fun _ => none }
  if n ≤ 1 then .abort else do
  if (s.clusters 0).length < n then .ub else do
  let order := (s.clusters 0).take n
  let levels ← order.tail.mapM (readLevel n s.levels)
  .ok { order, levels }

/-- The condition `i + 1 < size && merge_levels[i] <= level` (lib/cluster.c:297), evaluated left to right. -/
def moreAt (le : α → α → Bool) (d : Dendrogram α) (level : α) (i : Nat) : Out Bool :=
  if i + 1 < d.order.length then
    (match d.levels[i]? with | some l => .ok (le l level) | none => .ub)
  else .ok false

/-- Loop body of `sr_dendrogram_cut` (lib/cluster.c:297-311); the state is `first` and the list built so far. -/
def cutStep (le : α → α → Bool) (d : Dendrogram α) (level : α) (minSize : Int) (s : Nat × List (List Nat))
    (i : Nat) : Out (Nat × List (List Nat)) := do
  let more ← moreAt le d level i
  if more then .ok s
  else .ok (i + 1,
    if minSize ≤ (i : Int) - s.1 + 1 then ((d.order.drop s.1).take (i + 1 - s.1)) :: s.2 else s.2)

/-- `sr_dendrogram_cut` (lib/cluster.c:288-315); the linked list is a `List` in list order. -/
def cut (le : α → α → Bool) (d : Dendrogram α) (level : α) (minSize : Int) : Out (List (List Nat)) := do
  let s ← (List.range d.order.length).foldlM (cutStep le d level minSize) (0, [])
  .ok s.2

end Satyr.Cluster
