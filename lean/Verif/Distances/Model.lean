import Verif.Base
/-!
# Model of the distance matrix (`lib/distance.c`)

`float` values are elements of an arbitrary type `α` here: the code only stores and copies them.
`int` is modelled by unbounded integers; `Verif/Distances/Props.lean` shows for which `n` no intermediate
value of the index computation leaves the range of a 32-bit `int`.
-/
namespace Satyr.Distances

/-- `get_distance_position_mn` (lib/distance.c:298-308) without its assertion. C's `/` truncates. -/
def position (n i j : Int) : Int :=
  let h := n
  let l := n - i
  Int.tdiv ((h * h - h) - (l * l - l)) 2 + j - 1

/-- `struct sr_distances` (include/distance.h). `data` is the heap array; `none` = uninitialised slot. -/
structure Matrix (α : Type) where
  m : Nat
  n : Nat
  data : List (Option α)
  deriving Repr, DecidableEq

/-- The assertion in `get_distance_position_mn` (lib/distance.c:303). -/
def posOk (m n i j : Nat) : Bool := i < j && i < m && j < n

/-- `sr_distances_new` (lib/distance.c:316-335): clamp `m`, assert, allocate uninitialised memory. -/
def new (α : Type) (m n : Int) : Out (Matrix α) :=
  let m := if m ≥ n then n - 1 else m
  if m > 0 ∧ n > 1 ∧ m < n then
    .ok { m := m.toNat, n := n.toNat,
          data := List.replicate (position n (m - 1) (n - 1) + 1).toNat none }
  else .abort

/-- Read of `distances->distances[p]`: outside the array, or of an uninitialised slot, is UB. -/
def load {α} (d : Matrix α) (p : Int) : Out α :=
  if p < 0 then .ub else
  match d.data[p.toNat]? with
  | some (some v) => .ok v
  | _ => .ub

/-- Write to `distances->distances[p]`. -/
def store {α} (d : Matrix α) (p : Int) (v : α) : Out (Matrix α) :=
  if 0 ≤ p ∧ p.toNat < d.data.length then .ok { d with data := d.data.set p.toNat (some v) } else .ub

/-- Assignment `distances->distances[get_distance_position(distances, i, j)] = v`
(lib/distance.c:390, 464, 666) including the assertion on the indices. -/
def storeAt {α} (d : Matrix α) (i j : Nat) (v : α) : Out (Matrix α) :=
  if posOk d.m d.n i j then store d (position d.n i j) v else .abort

/-- `sr_distances_get_distance` (lib/distance.c:360-373). -/
def get {α} (zero : α) (d : Matrix α) (i j : Nat) : Out α :=
  if i = j then .ok zero else
  let (i, j) := if i > j then (j, i) else (i, j)
  if posOk d.m d.n i j then load d (position d.n i j) else .abort

/-- `sr_distances_set_distance` (lib/distance.c:375-391). -/
def set {α} (d : Matrix α) (i j : Nat) (v : α) : Out (Matrix α) :=
  if i = j then .ok d else
  let (i, j) := if i > j then (j, i) else (i, j)
  storeAt d i j v

/-- `sr_distances_dup` (lib/distance.c:337-348): a new matrix of the same shape, then `memcpy` of
`position(m-1, n-1) + 1` floats. (`memcpy` may copy uninitialised floats.) -/
def dup {α} (d : Matrix α) : Out (Matrix α) := do
  let r ← new α d.m d.n
  let cnt := (position d.n (d.m - 1) (d.n - 1) + 1).toNat
  if cnt ≤ d.data.length ∧ cnt ≤ r.data.length then
    .ok { r with data := d.data.take cnt ++ r.data.drop cnt }
  else .ub

/-- The nested loops `for (i = 0; i < m; i++) for (j = i + 1; j < n; j++)` visit the index pairs in this
order (lib/distance.c:459-467 and 548-570). -/
def loopPairs (m n : Nat) : List (Nat × Nat) :=
  (List.range m).flatMap fun i => (List.range' (i + 1) (n - (i + 1))).map fun j => (i, j)

/-- `sr_threads_compare` (lib/distance.c:436-470). `dist` is `normalize_and_compare` for the given distance
type; the threads are an array of at least `n` elements (a shorter one is an out-of-bounds read).
The assertion that all threads have one type is the parameter `sameType`. The outer loop runs to the
*unclamped* `m`, as in the code. -/
def threadsCompare {α T} (dist : T → T → α) (sameType : List T → Bool) (threads : List T) (m n : Nat) :
    Out (Matrix α) := do
  let d ← new α m n
  if !sameType (threads.take n) then .abort else
  (loopPairs m n).foldlM (fun d (i, j) =>
    match threads[i]?, threads[j]? with
    | some a, some b => storeAt d i j (dist a b)
    | _, _ => .ub) d

/-- `enum sr_distance_type` (include/distance.h:42-72). -/
inductive DistType where
  | jaroWinkler | jaccard | levenshtein | damerauLevenshtein
  deriving Repr, DecidableEq

/-- `struct sr_distances_part` (include/distance.h), without `next` (lists of parts are `List`s). -/
structure Part (α : Type) where
  m : Nat
  n : Nat
  mBegin : Nat
  nBegin : Nat
  len : Nat
  distType : DistType
  checksum : Nat
  distances : Option (List α)
  deriving Repr, DecidableEq

/-- `sr_distances_part_new` (lib/distance.c:472-486). -/
def partNew (α : Type) (m n : Nat) (distType : DistType) (mBegin nBegin len : Nat) : Part α :=
  { m, n, mBegin, nBegin, len, distType, checksum := 0, distances := none }

/-- Loop state of `sr_distances_part_create` (lib/distance.c:538-570). -/
structure CreateSt (α : Type) where
  parts : List (Part α)
  mBegin : Nat
  nBegin : Nat
  counter : Nat
  perPart : Nat
  leftover : Nat

/-- Loop body of `sr_distances_part_create` (lib/distance.c:551-569). -/
def createStep {α} (m n : Nat) (ty : DistType) (s : CreateSt α) (ij : Nat × Nat) : CreateSt α :=
  let counter := s.counter + 1
  if counter > s.perPart then
    { parts := s.parts ++ [partNew α m n ty s.mBegin s.nBegin s.perPart]
      mBegin := ij.1, nBegin := ij.2, counter := 1
      leftover := if s.leftover ≠ 0 then s.leftover - 1 else s.leftover
      perPart := if s.leftover ≠ 0 then (if s.leftover - 1 = 0 then s.perPart - 1 else s.perPart)
                 else s.perPart }
  else { s with counter := counter }

/-- `sr_distances_part_create` (lib/distance.c:519-577). `nparts = 0` divides by zero. -/
def partCreate (α : Type) (m n : Nat) (ty : DistType) (nparts : Nat) : Out (List (Part α)) :=
  let m := if m ≥ n then n - 1 else m
  if ¬ (m > 0 ∧ n > 1 ∧ m < n) then .abort else
  let triangleTwice := m * (m - 1)
  if triangleTwice % 2 ≠ 0 then .abort else
  let nelems := triangleTwice / 2 + m * (n - m)
  if nparts = 0 then .ub else
  let leftover := nelems % nparts
  let perPart := nelems / nparts + (if leftover ≠ 0 then 1 else 0)
  let s := (loopPairs m n).foldl (createStep m n ty)
    { parts := [], mBegin := 0, nBegin := 1, counter := 0, perPart, leftover : CreateSt α }
  if s.counter = s.perPart then
    .ok (s.parts ++ [partNew α m n ty s.mBegin s.nBegin s.counter])
  else .abort

/-- Advance of the cursor in the compute and merge loops (lib/distance.c:626-631, 669-674). -/
def advance (n i j : Nat) : Nat × Nat :=
  if j + 1 ≥ n then (i + 1, i + 2) else (i, j + 1)

/-- Loop of `sr_distances_part_compute` (lib/distance.c:616-632). -/
def computeLoop {α T} (dist : T → T → α) (threads : List T) (m n : Nat) :
    Nat → Nat → Nat → Out (List α)
  | 0, _, _ => .ok []
  | len + 1, i, j =>
    if ¬ (j > i) then .abort else
    if ¬ (i < m ∧ j < n) then .abort else
    match threads[i]?, threads[j]? with
    | some a, some b => do
      let rest ← computeLoop dist threads m n len (advance n i j).1 (advance n i j).2
      .ok (dist a b :: rest)
    | _, _ => .ub

/-- `sr_distances_part_compute` (lib/distance.c:606-635). `checksum` models `thread_list_checksum` on the
first `n` threads (lib/distance.c:581-604). -/
def partCompute {α T} (dist : DistType → T → T → α) (checksum : List T → Nat) (threads : List T) (p : Part α) :
    Out (Part α) := do
  let ds ← computeLoop (dist p.distType) threads p.m p.n p.len p.mBegin p.nBegin
  .ok { p with distances := some ds, checksum := checksum (threads.take p.n) }

/-- Inner loop of `sr_distances_part_merge` (lib/distance.c:656-675). `none` is the `goto error`.
Reading `it->distances` beyond its end (the list is shorter than `len`) is UB. -/
def mergeLoop {α} (pm pn : Nat) :
    Nat → List α → Nat → Nat → Matrix α → Out (Option (Matrix α))
  | 0, _, _, _, d => .ok (some d)
  | len + 1, ds, i, j, d =>
    if j ≤ i ∨ i ≥ pm ∨ j ≥ pn then .ok none else
    match ds with
    | [] => .ub
    | v :: ds => do
      let d ← storeAt d i j v
      mergeLoop pm pn len ds (advance pn i j).1 (advance pn i j).2 d

/-- Outer loop of `sr_distances_part_merge` (lib/distance.c:645-677). -/
def mergeParts {α} (m n checksum : Nat) : List (Part α) → Matrix α → Out (Option (Matrix α))
  | [], d => .ok (some d)
  | p :: ps, d =>
    if p.m ≠ m ∨ p.n ≠ n ∨ p.checksum ≠ checksum then .ok none else
    match p.distances with
    | none => .ok none
    | some ds => do
      match ← mergeLoop p.m p.n p.len ds p.mBegin p.nBegin d with
      | none => .ok none
      | some d => mergeParts m n checksum ps d

/-- `sr_distances_part_merge` (lib/distance.c:637-683); `none` = NULL. -/
def partMerge {α} (parts : List (Part α)) : Out (Option (Matrix α)) :=
  match parts with
  | [] => .ok none
  | p :: ps => do
    let d ← new α p.m p.n
    mergeParts p.m p.n p.checksum (p :: ps) d

end Satyr.Distances
