import Verif.Distances.Model
/-!
# Model of memory: the parts of a distance matrix (lib/distance.c)

Only the blocks and the pointers between them; the values are in `Verif.Distances.Model`.
-/
namespace Satyr.Distances.Memory

/-- A block: a `struct sr_distances_part` with the members `distances`, `next` and `len` (include/distance.h), or an array of distances. -/
inductive Cell where
  | part (distances next len : Nat)
  | floats (len : Nat)
  deriving DecidableEq, Repr

/-- Memory; address 0 is NULL. -/
abbrev Mem := Nat → Option Cell

/-- A write. -/
def Mem.set (m : Mem) (p : Nat) (c : Option Cell) : Mem := fun x => if x = p then c else m x

/-- `malloc`: any address that is not in use, depending on memory in any way; none if there is no memory left. -/
structure Allocator where
  pick : Mem → Option Nat
  free : ∀ m p, pick m = some p → m p = none ∧ p ≠ 0

/-- `g_malloc`; it aborts the program if there is no memory. -/
def alloc (A : Allocator) (c : Cell) (m : Mem) : Out (Nat × Mem) :=
  match A.pick m with
  | none => .abort
  | some p => .ok (p, m.set p (some c))

/-- `g_free` of an address that is not NULL: undefined if there is no block. -/
def gfree (p : Nat) (m : Mem) : Out Mem :=
  match m p with
  | none => .ub
  | some _ => .ok (m.set p none)

/-- Reading a part: undefined if there is none at the address. -/
def readPart (m : Mem) (p : Nat) : Out (Nat × Nat × Nat) :=
  match m p with
  | some (.part d next len) => .ok (d, next, len)
  | _ => .ub

/-- The list made by `sr_distances_part_create` (lib/distance.c:523-524, 555-557, 573-576): `res` is the first part, `tail` the last one; which
lengths the parts have is the subject of `partCreate`. `sr_distances_part_new` is lib/distance.c:472-486. -/
def create (A : Allocator) : List Nat → Nat → Nat → Mem → Out (Nat × Mem)
  | [], res, _, m => .ok (res, m)
  | len :: l, res, tail, m =>
    (alloc A (.part 0 0 len) m).bind fun (p, m) =>
    if tail = 0 then create A l p p m
    else (readPart m tail).bind fun (d, _, k) => create A l res p (m.set tail (some (.part d p k)))

/-- The memory side of `sr_distances_part_compute` (lib/distance.c:606-635): the array is allocated in any case (line 614). -/
def compute (A : Allocator) (p : Nat) (m : Mem) : Out Mem :=
  (readPart m p).bind fun (_, next, len) =>
  (alloc A (.floats len) m).bind fun (q, m) => .ok (m.set p (some (.part q next len)))

/-- The user goes to a part of the list along `next`. -/
def walk (m : Mem) : Nat → Nat → Out Nat
  | 0, p => .ok p
  | i + 1, p => (readPart m p).bind fun (_, next, _) => walk m i next

/-- `sr_distances_part_free` (lib/distance.c:685-700); `n` bounds the depth of the recursion. -/
def partFree : Nat → Nat → Bool → Mem → Out Mem
  | 0, _, _, _ => .ub
  | n + 1, p, follow, m =>
    if p = 0 then .ok m
    else
      (readPart m p).bind fun (d, next, _) =>
      (if d ≠ 0 then gfree d m else .ok m).bind fun m =>
      (gfree p m).bind fun m => if follow then partFree n next true m else .ok m

/-- Computing the parts with the given numbers, one after the other. -/
def computeAll (A : Allocator) (p : Nat) : List Nat → Mem → Out Mem
  | [], m => .ok m
  | i :: l, m => (walk m i p).bind fun q => (compute A q m).bind fun m => computeAll A p l m

/-- What a user does: create parts, compute some of them, free the list. -/
def session (A : Allocator) (lens calls : List Nat) (m : Mem) : Out Mem :=
  (create A lens 0 0 m).bind fun (p, m) => (computeAll A p calls m).bind fun m => partFree (lens.length + 1) p true m

end Satyr.Distances.Memory
