import Verif.Levenshtein.Model
import Verif.Distances.Model
/-!
# Model of the Jaccard and Jaro-Winkler metrics and of `sr_distance` (lib/distance.c)

`eq x y` stands for `0 == sr_frame_cmp_distance(x, y)`. `float` is modelled by rationals; counters by
unbounded numbers.
-/
namespace Satyr.Metrics

variable {F : Type} (eq : F → F → Bool)

/-- `distance_jaccard_frames_contain` (lib/distance.c:111-125): `needle` is the second argument of the comparison. -/
def contains : List F → F → Bool
  | [], _ => false
  | h :: t, needle => if eq h needle then true else contains t needle

/-- First loop of `distance_jaccard` (lib/distance.c:135-154): returns `(set1_size, intersection_size)` increments.
`other` are the frames of thread 2. -/
def jaccardLoop1 (other : List F) : List F → Nat × Nat → Nat × Nat
  | [], acc => acc
  | x :: rest, (n, k) =>
    if contains eq rest x then jaccardLoop1 other rest (n, k)
    else jaccardLoop1 other rest (n + 1, if contains eq other x then k + 1 else k)

/-- Second loop of `distance_jaccard` (lib/distance.c:156-168). -/
def jaccardLoop2 : List F → Nat → Nat
  | [], n => n
  | x :: rest, n => if contains eq rest x then jaccardLoop2 rest n else jaccardLoop2 rest (n + 1)

/-- `distance_jaccard` (lib/distance.c:127-179). `union_size` is an `int`, so it may be negative. -/
def jaccard (a b : List F) : Rat :=
  let r := jaccardLoop1 eq b a (0, 0)
  let set2 := jaccardLoop2 eq b 0
  let union : Int := (r.1 : Int) + set2 - r.2
  if union = 0 then 0 else
  let d : Rat := 1 - (r.2 : Rat) / (union : Rat)
  if d < 0 then 0 else d

/-- Inner loop of `distance_jaro_winkler` (lib/distance.c:58-79) from position `j` on; returns
(`match`, `still_prefix`, whether `trans_count` is incremented). `mx` is `max_frame_count`; the window bound
`max_frame_count / 2 - 1` is an `int` and may be `-1`. -/
def jwInner (mx : Nat) (i : Nat) (x : F) : List F → Nat → Bool → Bool × Bool × Bool
  | [], _, prefix_ => (false, prefix_, false)
  | y :: rest, j, prefix_ =>
    let prefix_ := if i = j ∧ eq x y = false then false else prefix_
    if ((Int.natAbs ((i : Int) - j) : Int) ≤ (mx / 2 : Nat) - 1) ∧ eq x y = true then
      (true, prefix_, decide (i ≠ j))
    else jwInner mx i x rest (j + 1) prefix_

/-- State of the outer loop. -/
structure JW where
  prefixLen : Nat
  stillPrefix : Bool
  trans : Nat
  matches_ : Nat
  deriving Repr, DecidableEq

/-- Outer loop of `distance_jaro_winkler` (lib/distance.c:54-88). -/
def jwOuter (mx : Nat) (b : List F) : List F → Nat → JW → JW
  | [], _, s => s
  | x :: rest, i, s =>
    let r := jwInner eq mx i x b 1 s.stillPrefix
    jwOuter mx b rest (i + 1)
      { stillPrefix := r.2.1
        trans := if r.2.2 then s.trans + 1 else s.trans
        prefixLen := if r.2.1 then s.prefixLen + 1 else s.prefixLen
        matches_ := if r.1 then s.matches_ + 1 else s.matches_ }

/-- `distance_jaro_winkler` (lib/distance.c:33-109); `k = 0.2` is the rational 1/5. -/
def jaroWinkler (a b : List F) : Rat :=
  if a.length = 0 ∧ b.length = 0 then 1 else
  let mx := if b.length < a.length then a.length else b.length
  let s := jwOuter eq mx b a 1 { prefixLen := 0, stillPrefix := true, trans := 0, matches_ := 0 }
  let trans : Rat := (s.trans : Rat) / 2
  let p := if s.prefixLen > 4 then 4 else s.prefixLen
  if s.matches_ = 0 then 0 else
  let m : Rat := s.matches_
  let jaro : Rat := (m / a.length + m / b.length + (m - trans) / m) / 3
  jaro + (p : Rat) * (1 / 5) * (1 - jaro)

/-- A thread as `sr_distance` sees it: its problem type and its frames. -/
structure Thread (T F : Type) where
  type : T
  frames : List F

/-- `sr_distance` (lib/distance.c:274-296). `ty = none` is a value outside of the enumeration (the `default`
branch). -/
def distance {T : Type} [DecidableEq T] (ty : Option Distances.DistType) (t1 t2 : Thread T F) : Out Rat :=
  if t1.type ≠ t2.type then .ok 1 else
  match ty with
  | some .jaroWinkler => .ok (jaroWinkler eq t1.frames t2.frames)
  | some .jaccard => .ok (jaccard eq t1.frames t2.frames)
  | some .levenshtein => Levenshtein.distance eq false t1.frames t2.frames
  | some .damerauLevenshtein => Levenshtein.distance eq true t1.frames t2.frames
  | none => .ok 1

end Satyr.Metrics
