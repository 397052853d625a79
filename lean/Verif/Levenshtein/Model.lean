import Verif.Base
/-!
# Model of `distance_levenshtein` (lib/distance.c:181-272)

`F` is the type of frames and `eq x y` stands for `0 == sr_frame_cmp_distance(x, y)`.
The `int` cells hold naturals: the code only ever stores counters and increments them. The width of `int`
is not modelled (the code asserts that the lengths stay below `INT32_MAX`, 202-203).
`float` division is division of rationals.
-/
namespace Satyr.Levenshtein

/-- The two heap arrays of the function. `none` is an uninitialised element. -/
structure St where
  dist : List Nat
  dist1 : List (Option Nat)
  deriving Repr, DecidableEq

/-- Array read with bounds check. -/
def rd {α} (a : List α) (l : Nat) : Out α :=
  match a[l]? with
  | some v => .ok v
  | none => .ub

/-- Array write with bounds check. -/
def wr {α} (a : List α) (l : Nat) (v : α) : Out (List α) :=
  if l < a.length then .ok (a.set l v) else .ub

variable {F : Type} (eq : F → F → Bool)

/-- The test of lib/distance.c:251-254 and the assignment of line 256; `dl` is the current `dist[l]`.
The operands of `&&` are evaluated from left to right; `prev`/`prev2` are `none` when the C pointer is NULL,
which `sr_frame_cmp_distance` would dereference. An indeterminate `dist2` may be copied but not used. -/
def transpose (transposition : Bool) (i j : Nat) (dl : Nat) (dist2 : Option Nat) (cost : Nat)
    (curr curr2 : F) (prev prev2 : Option F) : Out Nat :=
  if transposition && decide (i ≥ 2) && decide (j ≥ 2) then
    match dist2 with
    | none => .ub
    | some d2 =>
      if dl > d2 + cost then
        match prev2 with
        | none => .ub
        | some p2 =>
          if eq curr p2 then
            match prev with
            | none => .ub
            | some p => if eq p curr2 then .ok (d2 + cost) else .ok dl
          else .ok dl
      else .ok dl
  else .ok dl

/-- Inner loop body (lib/distance.c:223-261). -/
def cell (transposition : Bool) (m i j : Nat) (curr curr2 : F) (prev prev2 : Option F) (s : St) : Out St := do
  let l := m + j - i
  let dist2 ← rd s.dist1 l
  let dl ← rd s.dist l
  let dist1 ← wr s.dist1 l (some dl)
  let cost := if eq curr curr2 then 0 else 1
  let dl ←
    if eq curr curr2 then Out.ok dl
    else do
      let dl := dl + 1
      let below ← rd s.dist (l - 1)
      let dl := if dl > below + 1 then below + 1 else dl
      let above ← rd s.dist (l + 1)
      Out.ok (if dl > above + 1 then above + 1 else dl)
  let dl ← transpose eq transposition i j dl dist2 cost curr curr2 prev prev2
  let dist ← wr s.dist l dl
  .ok { dist := dist, dist1 := dist1 }

/-- Inner loop over thread 1 (lib/distance.c:222-261); returns also `prev_frame`, which survives the loop. -/
def inner (transposition : Bool) (m j : Nat) (curr2 : F) (prev2 : Option F) :
    List F → Nat → Option F → St → Out (St × Option F)
  | [], _, prev, s => .ok (s, prev)
  | curr :: rest, i, prev, s => do
    let s ← cell eq transposition m i j curr curr2 prev prev2 s
    inner transposition m j curr2 prev2 rest (i + 1) (some curr) s

/-- Outer loop over thread 2 (lib/distance.c:219-265). -/
def outer (transposition : Bool) (m : Nat) (a : List F) :
    List F → Nat → Option F → Option F → St → Out St
  | [], _, _, _, s => .ok s
  | curr2 :: rest, j, prev, prev2, s => do
    let (s, prev) ← inner eq transposition m j curr2 prev2 a 1 prev s
    outer transposition m a rest (j + 1) prev (some curr2) s

/-- Initial contents (lib/distance.c:205-213): `dist[m - i] = i` for `i = m..1`, `dist[m + i] = i` for
`i = 0..n`; `dist1` is uninitialised. Both have `m + n + 1` elements. -/
def initial (m n : Nat) : St :=
  { dist := (List.range m).map (fun k => m - k) ++ List.range (n + 1)
    dist1 := List.replicate (m + n + 1) none }

/-- The `int result` of lib/distance.c:267 for non-empty threads. -/
def rawDistance (transposition : Bool) (a b : List F) : Out Nat := do
  let m := a.length + 1
  let n := b.length + 1
  let s ← outer eq transposition m a b 1 none none (initial m n)
  rd s.dist n

/-- `distance_levenshtein` (lib/distance.c:181-272) on the frame lists of two threads of one type. -/
def distance (transposition : Bool) (a b : List F) : Out Rat :=
  let mx := if b.length < a.length then a.length else b.length
  if mx = 0 then .ok 0 else do
    let r ← rawDistance eq transposition a b
    .ok ((r : Rat) / (mx : Rat))

end Satyr.Levenshtein
