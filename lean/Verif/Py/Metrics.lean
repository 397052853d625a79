import Verif.Cluster.Model
import Verif.Py.Lists
/-!
# Model of the Python classes `Distances`, `DistancesPart` and `Dendrogram` (python/py_metrics.c, python/py_cluster.c)

The result of a method is `some` value, or `none` if it raises an exception. The functions of the library are those of
`Verif/Distances` and `Verif/Cluster`. Allocation of Python objects does not fail here. A `float` is of any type `α`; the
conversions between Python floats and C floats are exact for values that come from C floats, and not modelled for others.
-/
namespace Satyr.Py
open Satyr.Distances

/-- Format `i` of `PyArg_ParseTuple`: a number that does not fit into `int` raises an exception. -/
def intArg (z : Int) : Option Int := if -2147483648 ≤ z ∧ z ≤ 2147483647 then some z else none

/-- Formats `I` and `K` of `PyArg_ParseTuple`: no check for overflow. -/
def unsignedArg (z : Int) : Nat := (z % 4294967296).toNat
def ullArg (z : Int) : Nat := (z % 18446744073709551616).toNat

/-- The distance types (include/distance.h:38-87) as numbers; the last one is SR_DISTANCE_DAMERAU_LEVENSHTEIN. -/
def distTypeOf (z : Int) : Option DistType :=
  if z = 0 then some .jaroWinkler else if z = 1 then some .jaccard else if z = 2 then some .levenshtein
  else if z = 3 then some .damerauLevenshtein else none

/-- The inverse of `distTypeOf`: the value of the enumeration. -/
def distTypeNumber : DistType → Int
  | .jaroWinkler => 0
  | .jaccard => 1
  | .levenshtein => 2
  | .damerauLevenshtein => 3

/-- `validate_distance_params` (python/py_metrics.c:174-187); `some` type is `true`. -/
def validate (m n distType : Int) : Option DistType :=
  if m < 1 ∨ n < 2 then none
  else
    match distTypeOf distType with
    | none => none
    | some .jaroWinkler => none
    | some t => some t

/-- `prepare_thread_array` (python/py_metrics.c:189-220). An item of the list is `none` if it is no thread. `typeOf` is the type of
a thread, `framesOk` says whether `frames_prepare_linked_list` succeeds. A thread is what the library sees of it
afterwards (see C104 for when these are the frames of the Python list). -/
def prepareArray {T : Type} (typeOf : T → Nat) (framesOk : T → Bool) : List (Option T) → Option Nat → Option (List T)
  | [], _ => some []
  | none :: _, _ => none
  | some t :: l, prev =>
    if prev ≠ none ∧ prev ≠ some (typeOf t) then none
    else if framesOk t = false then none
    else
      match prepareArray typeOf framesOk l (some (typeOf t)) with
      | none => none
      | some ts => some (t :: ts)

/-- The assertion of `sr_threads_compare` (lib/distance.c:450-457). -/
def sameType {T : Type} (typeOf : T → Nat) : List T → Bool
  | [] => true
  | [_] => true
  | a :: b :: l => typeOf a == typeOf b && sameType typeOf (b :: l)

/-- `sr_py_distances_new` with a list of threads (python/py_metrics.c:237-250). An array of variable length needs a
positive length. The length of the list fits into `int`. -/
def distancesOfThreads {α T : Type} (dist : DistType → T → T → α) (typeOf : T → Nat) (framesOk : T → Bool)
    (items : List (Option T)) (m distType : Int) : Out (Option (Matrix α)) :=
  match intArg m, intArg distType with
  | some m, some distType =>
    if items.length = 0 then .ub
    else
      match validate m items.length distType with
      | none => .ok none
      | some t =>
        match prepareArray typeOf framesOk items none with
        | none => .ok none
        | some ts => (threadsCompare (dist t) (sameType typeOf) ts m.toNat items.length).bind fun d => .ok (some d)
  | _, _ => .ok none

/-- `sr_py_distances_new` with two numbers (python/py_metrics.c:251-261). -/
def distancesOfSize (α : Type) (m n : Int) : Out (Option (Matrix α)) :=
  match intArg m, intArg n with
  | some m, some n => if m < 1 ∨ n < 2 then .ok none else (new α m n).bind fun d => .ok (some d)
  | _, _ => .ok none

/-- `sr_py_distances_get_size` (python/py_metrics.c:291-296). -/
def getSize {α : Type} (d : Matrix α) : Int × Int := (d.m, d.n)

/-- The check of the indices (python/py_metrics.c:306-310, 324-328). -/
def indices {α : Type} (d : Matrix α) (i j : Int) : Option (Nat × Nat) :=
  match intArg i, intArg j with
  | some i, some j => if i < 0 ∨ j < 0 ∨ i ≥ d.m ∨ j ≥ d.n then none else some (i.toNat, j.toNat)
  | _, _ => none

/-- `sr_py_distances_get_distance` (python/py_metrics.c:298-313). -/
def getDistance {α : Type} (zero : α) (d : Matrix α) (i j : Int) : Out (Option α) :=
  match indices d i j with
  | none => .ok none
  | some (i, j) => (Distances.get zero d i j).bind fun v => .ok (some v)

/-- `sr_py_distances_set_distance` (python/py_metrics.c:315-332); the result is the changed object. -/
def setDistance {α : Type} (d : Matrix α) (i j : Int) (v : α) : Out (Option (Matrix α)) :=
  match indices d i j with
  | none => .ok none
  | some (i, j) => (Distances.set d i j v).bind fun d => .ok (some d)

/-- `sr_py_distances_dup` (python/py_metrics.c:335-350). -/
def dupDistances {α : Type} (d : Matrix α) : Out (Matrix α) := Distances.dup d

/-- `sr_py_distances_part_create` (python/py_metrics.c:536-580); `m` is 0 if it is not given. -/
def partsCreate (α : Type) (n nparts m distType : Int) : Out (Option (List (Part α))) :=
  match intArg n, intArg m, intArg distType with
  | some n, some m, some distType =>
    let m := if m = 0 then n - 1 else m
    match validate m n distType with
    | none => .ok none
    | some t => (partCreate α m.toNat n.toNat t (unsignedArg nparts)).bind fun ps => .ok (some ps)
  | _, _, _ => .ok none

/-- `sr_py_distances_part_compute` (python/py_metrics.c:582-605). -/
def partComputePy {α T : Type} (dist : DistType → T → T → α) (checksum : List T → Nat) (typeOf : T → Nat) (framesOk : T → Bool)
    (items : List (Option T)) (p : Part α) : Out (Option (Part α)) :=
  if items.length = 0 then .ub
  else
    match prepareArray typeOf framesOk items none with
    | none => .ok none
    | some ts => if items.length ≠ p.n then .ok none else (partCompute dist checksum ts p).bind fun p => .ok (some p)

/-- The last argument of the constructor of parts: `None`, a list of floats, or something else. -/
inductive Floats (α : Type) where
  | none
  | list (l : List α)
  | other
  deriving DecidableEq

/-- The arguments of the constructor of parts. -/
structure Pickled (α : Type) where
  m : Int
  n : Int
  mBegin : Int
  nBegin : Int
  len : Int
  distType : Int
  checksum : Int
  distances : Floats α
  deriving DecidableEq

/-- `sr_py_distances_part_reduce` (python/py_metrics.c:494-534). Reading beyond the end of the array is undefined. With at least 2^32 distances
the loop never ends, which is `.ub` here. -/
def partReduce {α : Type} (p : Part α) : Out (Pickled α) :=
  let args (f : Floats α) : Pickled α :=
    { m := p.m, n := p.n, mBegin := p.mBegin, nBegin := p.nBegin, len := p.len, distType := distTypeNumber p.distType,
      checksum := p.checksum, distances := f }
  match p.distances with
  | none => .ok (args .none)
  | some ds => if p.len ≥ 4294967296 ∨ ds.length < p.len then .ub else .ok (args (.list (ds.take p.len)))

/-- `sr_py_distances_part_new` (python/py_metrics.c:423-471). Sizes and positions that are negative, and distance types that do not
exist, are accepted by the code but not representable here: `.ub`. Writing beyond the end of the array is undefined. A list that is too short leaves
the rest of the array uninitialised: the list of distances is shorter than `len`. -/
def partNewPy {α : Type} (a : Pickled α) : Out (Option (Part α)) :=
  match intArg a.m, intArg a.n, intArg a.mBegin, intArg a.nBegin, intArg a.distType with
  | some m, some n, some mBegin, some nBegin, some t =>
    if m < 0 ∨ n < 0 ∨ mBegin < 0 ∨ nBegin < 0 then .ub
    else
      match distTypeOf t with
      | none => .ub
      | some t =>
        let p := partNew α m.toNat n.toNat t mBegin.toNat nBegin.toNat (ullArg a.len)
        let p := { p with checksum := ullArg a.checksum % 4294967296 }
        match a.distances with
        | .none => .ok (some p)
        | .list l => if l.length > p.len then .ub else .ok (some { p with distances := some l })
        | .other => .ok none
  | _, _, _, _, _ => .ok none

/-- A part is linked to the previous one (python/py_metrics.c:376-377). -/
def linkPart (prev : Option Object) (x : Object) (s : State) : State :=
  match prev with
  | none => s
  | some p => s.setNext (s.cOf p) (s.cOf x)

/-- The loop of `parts_prepare_linked_list` (python/py_metrics.c:358-388). -/
def partsLoop (ok : Object → Bool) : List Object → Option Object → State → Bool × State
  | [], prev, s => (true, finish prev s)
  | x :: l, prev, s =>
    let s := s.addRef x 1
    if ok x = false then (false, (s.addRef x (-1)).addRefOpt prev (-1))
    else partsLoop ok l (some x) ((linkPart prev x s).addRefOpt prev (-1))

/-- `parts_prepare_linked_list` (python/py_metrics.c:352-394): the first part, or NULL. -/
def prepareParts (ok : Object → Bool) (items : List Object) (s : State) : CPtr × State :=
  match partsLoop ok items none s with
  | (false, s) => (0, s)
  | (true, s) =>
    match items with
    | [] => (0, s)
    | x :: _ => (s.cOf x, s)

/-- `sr_py_distances_merge_parts` (python/py_metrics.c:396-420) for the parts that the library sees. An empty list gives NULL without an exception: the interpreter
reports this as an internal error (`SystemError`), which is an exception. -/
def mergePartsPy {α : Type} (parts : List (Part α)) : Out (Option (Matrix α)) :=
  if parts = [] then .ok none else partMerge parts

/-- `sr_py_dendrogram_new` (python/py_cluster.c:86-105). -/
def dendrogramNew {α : Type} (A : Cluster.Arith α) (d : Matrix α) : Out (Cluster.Dendrogram α) := Cluster.clusterObjects A d

/-- `sr_py_dendrogram_get_size` (python/py_cluster.c:130-135). -/
def dendrogramSize {α : Type} (d : Cluster.Dendrogram α) : Int := d.order.length

/-- `sr_py_dendrogram_get_object` (python/py_cluster.c:137-152). -/
def getObject {α : Type} (d : Cluster.Dendrogram α) (i : Int) : Out (Option Nat) :=
  match intArg i with
  | none => .ok none
  | some i =>
    if i < 0 ∨ i ≥ d.order.length then .ok none
    else
      match d.order[i.toNat]? with
      | some o => .ok (some o)
      | none => .ub

/-- `sr_py_dendrogram_get_merge_level` (python/py_cluster.c:154-169); there is one level less than there are objects. -/
def getMergeLevel {α : Type} (d : Cluster.Dendrogram α) (i : Int) : Out (Option α) :=
  match intArg i with
  | none => .ok none
  | some i =>
    if i < 0 ∨ i > d.order.length then .ok none
    else
      match d.levels[i.toNat]? with
      | some l => .ok (some l)
      | none => .ub

/-- `sr_py_dendrogram_cut` (python/py_cluster.c:172-200). -/
def dendrogramCut {α : Type} (le : α → α → Bool) (d : Cluster.Dendrogram α) (level : α) (minSize : Int) : Out (Option (List (List Nat))) :=
  match intArg minSize with
  | none => .ok none
  | some k => (Cluster.cut le d level k).bind fun cs => .ok (some cs)

end Satyr.Py
