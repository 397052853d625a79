import Verif.Cluster.Model
/-!
# Model of the growing arrays of lib/cluster.c

`Verif.Cluster.Model` takes `struct cluster` as a list. Here it is the structure of the code: an array on the heap that is enlarged when it is
full, of which the first `size` elements are in use.
-/
namespace Satyr.Cluster.Array

/-- `struct cluster` (lib/cluster.c:53-58). `objects` has `alloced` elements; `none` is an element that was not initialised. With `alloced = 0`
there is no block on the heap (NULL). -/
structure Arr where
  size : Nat := 0
  alloced : Nat := 0
  objects : Nat → Option Nat := fun _ => none

/-- Read of an element: undefined outside the array and if it was not initialised. -/
def rd (c : Arr) (i : Nat) : Out Nat :=
  if i < c.alloced then (match c.objects i with | some v => .ok v | none => .ub) else .ub

/-- Write of an element: undefined outside the array. -/
def wr (c : Arr) (i v : Nat) : Out Arr :=
  if i < c.alloced then .ok { c with objects := upd c.objects i (some v) } else .ub

/-- `cluster_init` (lib/cluster.c:60-65). -/
def init : Arr := {}

/-- `cluster_clean` (lib/cluster.c:67-72): the block is freed. -/
def clean (_ : Arr) : Arr := init

/-- Enlarging the array (lib/cluster.c:79-81): the old elements are kept, the new ones are not initialised; `int` overflow is undefined. -/
def grow (c : Arr) : Out Arr :=
  let a := if c.alloced ≥ 1 then c.alloced * 2 else 1
  if a ≥ 2 ^ 31 then .ub else .ok { c with alloced := a, objects := fun i => if i < c.alloced then c.objects i else none }

/-- `cluster_add_index` (lib/cluster.c:74-84). -/
def addIndex (c : Arr) (index : Nat) : Out Arr :=
  (if c.size ≥ c.alloced then grow c else .ok c).bind fun c =>
  (wr c c.size index).bind fun c => .ok { c with size := c.size + 1 }

/-- The loop of `cluster_merge` (lib/cluster.c:91-92) from element `i` on, `k` elements being left. -/
def mergeFrom (src : Arr) : Nat → Nat → Arr → Out Arr
  | 0, _, dest => .ok dest
  | k + 1, i, dest => (rd src i).bind fun v => (addIndex dest v).bind fun dest => mergeFrom src k (i + 1) dest

/-- `cluster_merge` (lib/cluster.c:86-93), for two different clusters. -/
def merge (dest src : Arr) : Out Arr := mergeFrom src src.size 0 dest

/-- The loop of `cluster_reverse` (lib/cluster.c:100-104) from element `i` on, `k` rounds being left. -/
def reverseFrom : Nat → Nat → Arr → Out Arr
  | 0, _, c => .ok c
  | k + 1, i, c =>
    (rd c i).bind fun t => (rd c (c.size - i - 1)).bind fun u =>
    (wr c i u).bind fun c => (wr c (c.size - i - 1) t).bind fun c => reverseFrom k (i + 1) c

/-- `cluster_reverse` (lib/cluster.c:95-105). -/
def reverse (c : Arr) : Out Arr := reverseFrom (c.size / 2) 0 c

/-- What one merge does to the array of clusters (lib/cluster.c:230, 235, 237, 242, 249-250): which clusters, and which of them are reversed before. -/
structure Op where
  c1 : Nat
  c2 : Nat
  reverse1 : Bool
  reverse2 : Bool
  deriving DecidableEq, Repr

/-- One merge. -/
def step (f : Nat → Arr) (o : Op) : Out (Nat → Arr) :=
  (if o.reverse1 then reverse (f o.c1) else .ok (f o.c1)).bind fun a =>
  (if o.reverse2 then reverse (f o.c2) else .ok (f o.c2)).bind fun b =>
  (merge a b).bind fun a => .ok (upd (upd f o.c1 a) o.c2 (clean b))

/-- All merges. -/
def run (f : Nat → Arr) : List Op → Out (Nat → Arr)
  | [] => .ok f
  | o :: l => (step f o).bind fun f => run f l

/-- One cluster for each of the first `k` objects (lib/cluster.c:122-127). -/
def start : Nat → Out (Nat → Arr)
  | 0 => .ok fun _ => init
  | k + 1 => (start k).bind fun f => (addIndex init k).bind fun c => .ok (upd f k c)

end Satyr.Cluster.Array
