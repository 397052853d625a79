import Verif.Normalize.Props
import Verif.CStr.Num
/-!
# Pairing of unknown function names (C18)
-/
namespace Satyr.Normalize
open Satyr.CStr

/-! ## Model

A thread is the list of its frames; a pointer into it is an index. The two threads are different objects. -/

/-- Both library names known and different. -/
def libsDiffer (a b : GdbFrame) : Bool :=
  match a.libraryName, b.libraryName with
  | some x, some y => strcmp x y != 0
  | _, _ => false

/-- `next_functions_similar` (lib/normalize.c:534-548); the arguments are the `next` pointers. -/
def nextSimilar : Option GdbFrame → Option GdbFrame → Bool
  | none, some _ => false
  | some _, none => false
  | none, none => true
  | some a, some b =>
    if strcmp0 a.functionName b.functionName ≠ 0 ∨ strcmp0 a.functionName (some c!"??") = 0 ∨ libsDiffer a b = true
    then false else true

/-- `0 == g_strcmp0(frame->function_name, "??")`. -/
def unknown (f : GdbFrame) : Bool := strcmp0 f.functionName (some c!"??") == 0

/-- The condition on the first frames (lib/normalize.c:564-568). -/
def firstPair (f1 f2 : List GdbFrame) : Bool :=
  match f1[0]?, f2[0]? with
  | some a, some b => unknown a && unknown b && !libsDiffer a b && nextSimilar f1[1]? f2[1]?
  | _, _ => false

/-- The condition of the inner loop (lib/normalize.c:588-596) at frames `i`, `j` other than the first ones. -/
def laterPair (f1 f2 : List GdbFrame) (i j : Nat) : Bool :=
  match f1[i]?, f2[j]?, f1[i - 1]?, f2[j - 1]? with
  | some a, some b, some pa, some pb =>
    unknown b && !libsDiffer a b && !unknown pb && nextSimilar f1[i + 1]? f2[j + 1]? &&
      strcmp0 pa.functionName pb.functionName == 0 && !libsDiffer pa pb
  | _, _, _, _ => false

/-- `g_strdup_printf("__unknown_function_%d", i)`. -/
def unknownName (k : Nat) : Str := c!"__unknown_function_" ++ natDec k

/-- Replacing the name of the frame `i` (lib/normalize.c:571-574, 599-602). -/
def setName (f : List GdbFrame) (i k : Nat) : List GdbFrame :=
  f.modify i fun x => { x with functionName := some (unknownName k) }

/-- The loop variables: both threads and the counter. -/
structure PairState where
  f1 : List GdbFrame
  f2 : List GdbFrame
  k : Nat
  deriving Repr, DecidableEq

/-- The renaming of a pair (lib/normalize.c:570-574, 598-602). -/
def pairUp (s : PairState) (i j : Nat) : PairState := ⟨setName s.f1 i s.k, setName s.f2 j s.k, s.k + 1⟩

/-- The inner loop (lib/normalize.c:586-607): frames of thread 2 from `j` on, `fuel` of them. -/
def innerLoop (s : PairState) (i : Nat) : Nat → Nat → PairState
  | _, 0 => s
  | j, fuel + 1 => if laterPair s.f1 s.f2 i j then pairUp s i j else innerLoop s i (j + 1) fuel

/-- The outer loop (lib/normalize.c:582-613): frames of thread 1 from `i` on, `fuel` of them. -/
def outerLoop (s : PairState) : Nat → Nat → PairState
  | _, 0 => s
  | i, fuel + 1 =>
    let s := match s.f1[i]? with
      | some a => if unknown a then innerLoop s i 1 (s.f2.length - 1) else s
      | none => s
    outerLoop s (i + 1) fuel

/-- `sr_normalize_gdb_paired_unknown_function_names` (lib/normalize.c:551-614). -/
def pairUnknown (f1 f2 : List GdbFrame) : List GdbFrame × List GdbFrame :=
  if f1 = [] ∨ f2 = [] then (f1, f2) else
  let s : PairState := ⟨f1, f2, 0⟩
  let s := if firstPair f1 f2 then pairUp s 0 0 else s
  let s := outerLoop s 1 (f1.length - 1)
  (s.f1, s.f2)

/-! ## Specification -/

/-- The name at a position: `none` past the end, `some none` for a frame without name. -/
def nameAt (f : List GdbFrame) (i : Nat) : Option (Option Str) := f[i]?.map (·.functionName)

/-- The frames above `i` and `j` have the same known name (or `i`, `j` are both the first), and so have those below
(or both are the last). -/
def Neighbours (f1 f2 : List GdbFrame) (i j : Nat) : Prop :=
  ((i = 0 ∧ j = 0) ∨ (0 < i ∧ 0 < j ∧ nameAt f1 (i - 1) = nameAt f2 (j - 1) ∧ nameAt f1 (i - 1) ≠ some (some c!"??"))) ∧
    nameAt f1 (i + 1) = nameAt f2 (j + 1) ∧ nameAt f1 (i + 1) ≠ some (some c!"??")

/-- The libraries at the two positions, if both known, are the same. -/
def LibsAgree (f1 f2 : List GdbFrame) (i j : Nat) : Prop :=
  ∀ a b x y, f1[i]? = some a → f2[j]? = some b → a.libraryName = some x → b.libraryName = some y → x = y

/-- The frames at `i` and `j` are unknown and their surroundings agree. -/
def Fits (f1 f2 : List GdbFrame) (i j : Nat) : Prop :=
  nameAt f1 i = some (some c!"??") ∧ nameAt f2 j = some (some c!"??") ∧ Neighbours f1 f2 i j ∧
    LibsAgree f1 f2 i j ∧ LibsAgree f1 f2 (i + 1) (j + 1) ∧ LibsAgree f1 f2 (i - 1) (j - 1)

/-- The threads `r1`, `r2` are `o1`, `o2` with the frames at the listed positions renamed: the `k`-th pair is called
`__unknown_function_k`. -/
structure Paired (o1 o2 : List GdbFrame) (pairs : List (Nat × Nat)) (r1 r2 : List GdbFrame) : Prop where
  length1 : r1.length = o1.length
  length2 : r2.length = o2.length
  nodup1 : (pairs.map Prod.fst).Nodup
  nodup2 : (pairs.map Prod.snd).Nodup
  other1 : ∀ i, i ∉ pairs.map Prod.fst → r1[i]? = o1[i]?
  other2 : ∀ j, j ∉ pairs.map Prod.snd → r2[j]? = o2[j]?
  renamed : ∀ (k : Nat) p, pairs[k]? = some p → ∃ a b, o1[p.1]? = some a ∧ o2[p.2]? = some b ∧
    a.functionName = some c!"??" ∧ b.functionName = some c!"??" ∧
    ¬ (∃ x y, a.libraryName = some x ∧ b.libraryName = some y ∧ x ≠ y) ∧
    r1[p.1]? = some { a with functionName := some (unknownName k) } ∧
    r2[p.2]? = some { b with functionName := some (unknownName k) } ∧ Neighbours r1 r2 p.1 p.2

/-! ## Proofs -/

theorem unknown_iff (f : GdbFrame) : unknown f = true ↔ f.functionName = some c!"??" := by
  unfold unknown; rw [beq_iff_eq, strcmp0_eq_zero]

theorem libsDiffer_iff (a b : GdbFrame) : libsDiffer a b = true ↔
    ∃ x y, a.libraryName = some x ∧ b.libraryName = some y ∧ x ≠ y := by
  unfold libsDiffer
  cases a.libraryName <;> cases b.libraryName <;> simp [strcmp_eq_zero]

theorem nextSimilar_names {f1 f2 : List GdbFrame} {i j : Nat} (h : nextSimilar f1[i]? f2[j]? = true) :
    nameAt f1 i = nameAt f2 j ∧ nameAt f1 i ≠ some (some c!"??") := by
  unfold nameAt
  cases h1 : f1[i]? <;> cases h2 : f2[j]? <;> rw [h1, h2] at h
  · simp
  · simp [nextSimilar] at h
  · simp [nextSimilar] at h
  · simp only [nextSimilar] at h
    split at h
    · simp at h
    · next hn =>
      rw [not_or, not_or, not_not, strcmp0_eq_zero, strcmp0_eq_zero] at hn
      simp only [Option.map_some, hn.1, ne_eq, Option.some.injEq, true_and]
      rw [← hn.1]; exact hn.2.1

/-- The name given to pairs is never `??`. -/
theorem unknownName_ne (k : Nat) : unknownName k ≠ c!"??" := by
  unfold unknownName
  intro h
  have := congrArg List.head? h
  simp at this

theorem unknownName_injective {k l : Nat} (h : unknownName k = unknownName l) : k = l := by
  unfold unknownName at h
  exact natDec_injective (List.append_cancel_left h)

theorem setName_get (f : List GdbFrame) (i k x : Nat) :
    (setName f i k)[x]? = if x = i then f[i]?.map (fun a => { a with functionName := some (unknownName k) }) else f[x]? := by
  unfold setName
  rw [List.getElem?_modify]
  by_cases h : x = i
  · subst h; simp
  · rw [if_neg h]
    have : ¬ i = x := fun hh => h hh.symm
    simp [this]

theorem nameAt_setName {f : List GdbFrame} {i k x : Nat} (hi : nameAt f i = some (some c!"??"))
    (hx : nameAt f x ≠ some (some c!"??")) : nameAt (setName f i k) x = nameAt f x := by
  unfold nameAt at *
  rw [setName_get]
  split
  · next h => subst h; exact absurd hi hx
  · rfl

theorem Neighbours.setName {f1 f2 : List GdbFrame} {i j x y k : Nat} (h : Neighbours f1 f2 x y)
    (h1 : nameAt f1 i = some (some c!"??")) (h2 : nameAt f2 j = some (some c!"??")) :
    Neighbours (setName f1 i k) (setName f2 j k) x y := by
  obtain ⟨ha, hb, hc⟩ := h
  refine ⟨?_, ?_, ?_⟩
  · rcases ha with ha | ⟨p1, p2, p3, p4⟩
    · exact Or.inl ha
    · refine Or.inr ⟨p1, p2, ?_, ?_⟩
      · rw [nameAt_setName h1 p4, nameAt_setName h2 (p3 ▸ p4)]; exact p3
      · rw [nameAt_setName h1 p4]; exact p4
  · rw [nameAt_setName h1 hc, nameAt_setName h2 (hb ▸ hc)]; exact hb
  · rw [nameAt_setName h1 hc]; exact hc

/-- Renaming one more pair of unknown frames. -/
theorem Paired.pairUp {o1 o2 : List GdbFrame} {pairs : List (Nat × Nat)} {s : PairState} {i j : Nat}
    (h : Paired o1 o2 pairs s.f1 s.f2) (hk : s.k = pairs.length) {a b : GdbFrame}
    (ha : s.f1[i]? = some a) (hb : s.f2[j]? = some b) (ua : unknown a = true) (ub : unknown b = true)
    (hl : libsDiffer a b = false) (hn : Neighbours s.f1 s.f2 i j) :
    Paired o1 o2 (pairs ++ [(i, j)]) (Normalize.pairUp s i j).f1 (Normalize.pairUp s i j).f2 := by
  rw [unknown_iff] at ua ub
  have na : nameAt s.f1 i = some (some c!"??") := by unfold nameAt; rw [ha]; simp [ua]
  have nb : nameAt s.f2 j = some (some c!"??") := by unfold nameAt; rw [hb]; simp [ub]
  have hi : i ∉ pairs.map Prod.fst := by
    intro hm
    obtain ⟨p, hp, rfl⟩ := List.mem_map.1 hm
    obtain ⟨k, hk⟩ := List.mem_iff_getElem?.1 hp
    obtain ⟨_, _, _, _, _, _, _, hr, _⟩ := h.renamed k p hk
    rw [hr] at ha; cases ha
    simp only [Option.some.injEq] at ua
    exact unknownName_ne k ua
  have hj : j ∉ pairs.map Prod.snd := by
    intro hm
    obtain ⟨p, hp, rfl⟩ := List.mem_map.1 hm
    obtain ⟨k, hk⟩ := List.mem_iff_getElem?.1 hp
    obtain ⟨_, _, _, _, _, _, _, _, hr, _⟩ := h.renamed k p hk
    rw [hr] at hb; cases hb
    simp only [Option.some.injEq] at ub
    exact unknownName_ne k ub
  unfold Normalize.pairUp
  refine ⟨?_, ?_, ?_, ?_, ?_, ?_, ?_⟩
  · simp [setName, h.length1]
  · simp [setName, h.length2]
  · rw [List.map_append, List.nodup_append]
    refine ⟨h.nodup1, by simp, ?_⟩
    intro x hx y hy
    simp only [List.map_cons, List.map_nil, List.mem_singleton] at hy
    rintro rfl
    exact hi (hy ▸ hx)
  · rw [List.map_append, List.nodup_append]
    refine ⟨h.nodup2, by simp, ?_⟩
    intro x hx y hy
    simp only [List.map_cons, List.map_nil, List.mem_singleton] at hy
    rintro rfl
    exact hj (hy ▸ hx)
  · intro x hx
    simp only [List.map_append, List.map_cons, List.map_nil, List.mem_append, List.mem_singleton, not_or] at hx
    rw [setName_get, if_neg hx.2]
    exact h.other1 x hx.1
  · intro x hx
    simp only [List.map_append, List.map_cons, List.map_nil, List.mem_append, List.mem_singleton, not_or] at hx
    rw [setName_get, if_neg hx.2]
    exact h.other2 x hx.1
  · intro k p hp
    rcases Nat.lt_trichotomy k pairs.length with hlt | heq | hgt
    · rw [List.getElem?_append_left hlt] at hp
      obtain ⟨a', b', q1, q2, q3, q4, q5, q6, q7, q8⟩ := h.renamed k p hp
      refine ⟨a', b', q1, q2, q3, q4, q5, ?_, ?_, q8.setName na nb⟩
      · rw [setName_get, if_neg]
        · exact q6
        · rintro rfl; exact hi (List.mem_map_of_mem (List.mem_of_getElem? hp))
      · rw [setName_get, if_neg]
        · exact q7
        · rintro rfl; exact hj (List.mem_map_of_mem (List.mem_of_getElem? hp))
    · subst heq
      rw [List.getElem?_append_right (le_refl _)] at hp
      simp only [Nat.sub_self, List.getElem?_cons_zero, Option.some.injEq] at hp
      subst hp
      refine ⟨a, b, by rw [← h.other1 i hi]; exact ha, by rw [← h.other2 j hj]; exact hb, ua, ub, ?_, ?_, ?_, hn.setName na nb⟩
      · rw [← libsDiffer_iff, hl]; simp
      · rw [setName_get, if_pos rfl, ha, hk]; rfl
      · rw [setName_get, if_pos rfl, hb, hk]; rfl
    · rw [List.getElem?_append_right (by omega)] at hp
      simp only [List.getElem?_singleton] at hp
      rw [if_neg (by omega)] at hp
      cases hp

/-- What the inner loop does: nothing, if no frame of thread 2 fits, or one renaming. -/
theorem innerLoop_cases (s : PairState) (i : Nat) : ∀ (fuel j : Nat),
    (innerLoop s i j fuel = s ∧ ∀ x, j ≤ x → x < j + fuel → laterPair s.f1 s.f2 i x = false) ∨
    ∃ x, j ≤ x ∧ laterPair s.f1 s.f2 i x = true ∧ innerLoop s i j fuel = pairUp s i x := by
  intro fuel
  induction fuel with
  | zero => intro j; left; exact ⟨rfl, fun x h1 h2 => by omega⟩
  | succ fuel ih =>
    intro j
    unfold innerLoop
    by_cases hp : laterPair s.f1 s.f2 i j = true
    · rw [if_pos hp]; right; exact ⟨j, le_refl _, hp, rfl⟩
    · rw [if_neg hp]
      rcases ih (j + 1) with ⟨h1, h2⟩ | ⟨x, h1, h2, h3⟩
      · left
        refine ⟨h1, fun x hx1 hx2 => ?_⟩
        rcases Nat.eq_or_lt_of_le hx1 with rfl | hx1
        · simpa using hp
        · exact h2 x hx1 (by omega)
      · right; exact ⟨x, by omega, h2, h3⟩

theorem laterPair_true {f1 f2 : List GdbFrame} {i j : Nat} (hi : 0 < i) (hj : 0 < j) (h : laterPair f1 f2 i j = true) :
    ∃ a b, f1[i]? = some a ∧ f2[j]? = some b ∧ unknown b = true ∧ libsDiffer a b = false ∧ Neighbours f1 f2 i j := by
  unfold laterPair at h
  cases h1 : f1[i]? with
  | none => rw [h1] at h; simp at h
  | some a =>
    cases h2 : f2[j]? with
    | none => rw [h1, h2] at h; simp at h
    | some b =>
      cases h3 : f1[i - 1]? with
      | none => rw [h1, h2, h3] at h; simp at h
      | some pa =>
        cases h4 : f2[j - 1]? with
        | none => rw [h1, h2, h3, h4] at h; simp at h
        | some pb =>
          rw [h1, h2, h3, h4] at h
          simp only [Bool.and_eq_true, Bool.not_eq_true'] at h
          obtain ⟨⟨⟨⟨⟨u1, u2⟩, u3⟩, u4⟩, u5⟩, u6⟩ := h
          refine ⟨a, b, rfl, rfl, u1, u2, Or.inr ⟨hi, hj, ?_, ?_⟩, nextSimilar_names u4⟩
          · unfold nameAt; rw [h3, h4]; rw [beq_iff_eq, strcmp0_eq_zero] at u5; simp [u5]
          · unfold nameAt; rw [h3]
            rw [beq_iff_eq, strcmp0_eq_zero] at u5
            rw [Bool.eq_false_iff, ne_eq, unknown_iff, ← u5] at u3
            simpa using u3

theorem outerLoop_paired {o1 o2 : List GdbFrame} : ∀ (fuel i : Nat) (s : PairState) (pairs : List (Nat × Nat)), 0 < i →
    Paired o1 o2 pairs s.f1 s.f2 → s.k = pairs.length →
    ∃ more, Paired o1 o2 (pairs ++ more) (outerLoop s i fuel).f1 (outerLoop s i fuel).f2 ∧
      (more = [] → ∀ x y, i ≤ x → x < i + fuel → 0 < y → y < s.f2.length → (∃ a, s.f1[x]? = some a ∧ unknown a = true) →
        laterPair s.f1 s.f2 x y = false) := by
  intro fuel
  induction fuel with
  | zero => intro i s pairs _ h _; exact ⟨[], by simpa [outerLoop] using h, fun _ x y h1 h2 => by omega⟩
  | succ fuel ih =>
    intro i s pairs hi h hk
    have skip : outerLoop s i (fuel + 1) = outerLoop s (i + 1) fuel →
        (∀ y, 0 < y → y < s.f2.length → (∃ a, s.f1[i]? = some a ∧ unknown a = true) → laterPair s.f1 s.f2 i y = false) →
        ∃ more, Paired o1 o2 (pairs ++ more) (outerLoop s i (fuel + 1)).f1 (outerLoop s i (fuel + 1)).f2 ∧
          (more = [] → ∀ x y, i ≤ x → x < i + (fuel + 1) → 0 < y → y < s.f2.length →
            (∃ a, s.f1[x]? = some a ∧ unknown a = true) → laterPair s.f1 s.f2 x y = false) := by
      intro he hno
      obtain ⟨more, h1, h2⟩ := ih (i + 1) s pairs (by omega) h hk
      refine ⟨more, by rw [he]; exact h1, fun hm x y hx1 hx2 hy1 hy2 hu => ?_⟩
      rcases Nat.eq_or_lt_of_le hx1 with rfl | hx1
      · exact hno y hy1 hy2 hu
      · exact h2 hm x y hx1 (by omega) hy1 hy2 hu
    cases ha : s.f1[i]? with
    | none =>
      apply skip
      · rw [outerLoop, ha]
      · rintro y _ _ ⟨a, h1, _⟩; rw [ha] at h1; cases h1
    | some a =>
      by_cases hu : unknown a = true
      · rcases innerLoop_cases s i (s.f2.length - 1) 1 with ⟨h1, h2⟩ | ⟨x, h1, h2, h3⟩
        · apply skip
          · rw [outerLoop, ha]; simp only [hu, if_true, h1]
          · intro y hy1 hy2 _; exact h2 y hy1 (by omega)
        · obtain ⟨a', b, e1, e2, e3, e4, e5⟩ := laterPair_true hi h1 h2
          rw [ha] at e1; cases e1
          have hp := h.pairUp hk ha e2 hu e3 e4 e5
          obtain ⟨more, m1, _⟩ := ih (i + 1) (pairUp s i x) (pairs ++ [(i, x)]) (by omega) hp (by simp [pairUp, hk])
          refine ⟨(i, x) :: more, ?_, by simp⟩
          have e : outerLoop s i (fuel + 1) = outerLoop (pairUp s i x) (i + 1) fuel := by
            rw [outerLoop, ha]; simp only [hu, if_true, h3]
          rw [e]
          simpa using m1
      · apply skip
        · rw [outerLoop, ha]; simp only [hu, Bool.false_eq_true, if_false]
        · rintro y _ _ ⟨b, h1, h2⟩; rw [ha] at h1; cases h1; exact absurd h2 hu

theorem Paired.nil (o1 o2 : List GdbFrame) : Paired o1 o2 [] o1 o2 :=
  ⟨rfl, rfl, by simp, by simp, fun _ _ => rfl, fun _ _ => rfl, fun k p h => by simp at h⟩

theorem firstPair_true {f1 f2 : List GdbFrame} (h : firstPair f1 f2 = true) :
    ∃ a b, f1[0]? = some a ∧ f2[0]? = some b ∧ unknown a = true ∧ unknown b = true ∧ libsDiffer a b = false ∧
      Neighbours f1 f2 0 0 := by
  unfold firstPair at h
  cases h1 : f1[0]? with
  | none => rw [h1] at h; simp at h
  | some a =>
    cases h2 : f2[0]? with
    | none => rw [h1, h2] at h; simp at h
    | some b =>
      rw [h1, h2] at h
      simp only [Bool.and_eq_true, Bool.not_eq_true'] at h
      obtain ⟨⟨⟨u1, u2⟩, u3⟩, u4⟩ := h
      exact ⟨a, b, rfl, rfl, u1, u2, u3, Or.inl ⟨rfl, rfl⟩, nextSimilar_names u4⟩

theorem pairUnknown_spec (f1 f2 : List GdbFrame) :
    ∃ pairs, Paired f1 f2 pairs (pairUnknown f1 f2).1 (pairUnknown f1 f2).2 ∧
      (pairs = [] → firstPair f1 f2 = false ∧ ∀ i j, 0 < i → 0 < j → j < f2.length →
        (∃ a, f1[i]? = some a ∧ unknown a = true) → laterPair f1 f2 i j = false) := by
  unfold pairUnknown
  by_cases he : f1 = [] ∨ f2 = []
  · rw [if_pos he]
    refine ⟨[], Paired.nil f1 f2, fun _ => ⟨?_, ?_⟩⟩
    · unfold firstPair
      rcases he with rfl | rfl
      · simp
      · cases f1[0]? <;> simp
    · rintro i j _ _ hj ⟨a, ha, _⟩
      rcases he with rfl | rfl
      · simp at ha
      · simp at hj
  · rw [if_neg he]
    rw [not_or] at he
    have hl1 : 0 < f1.length := List.length_pos_iff.2 he.1
    by_cases hf : firstPair f1 f2 = true
    · simp only [hf, if_true]
      obtain ⟨a, b, e1, e2, e3, e4, e5, e6⟩ := firstPair_true hf
      have hp := Paired.pairUp (s := ⟨f1, f2, 0⟩) (i := 0) (j := 0) (Paired.nil f1 f2) rfl e1 e2 e3 e4 e5 e6
      obtain ⟨more, m1, _⟩ := outerLoop_paired (f1.length - 1) 1 _ _ (by omega) hp (by simp [pairUp])
      exact ⟨_, m1, by simp⟩
    · simp only [hf]
      obtain ⟨more, m1, m2⟩ := outerLoop_paired (f1.length - 1) 1 ⟨f1, f2, 0⟩ [] (by omega) (Paired.nil f1 f2) rfl
      refine ⟨_, m1, fun hm => ⟨by simpa using hf, fun i j hi hj hjl hu => ?_⟩⟩
      obtain ⟨a, ha, _⟩ := id hu
      have := (List.getElem?_eq_some_iff.1 ha).1
      exact m2 (by simpa using hm) i j (by omega) (by omega) hj hjl hu

/-! ## C18 -/

/-- C18: only frames named `??` are changed, in pairs; the two frames of a pair get the same new name, numbers and orders
of frames stay, no frame is in two pairs, the libraries of a pair do not contradict each other, and in the resulting
threads the frames next to the paired ones have equal known names. -/
theorem C18_paired (f1 f2 : List GdbFrame) :
    ∃ pairs, Paired f1 f2 pairs (pairUnknown f1 f2).1 (pairUnknown f1 f2).2 :=
  (pairUnknown_spec f1 f2).imp fun _ h => h.1

/-- C18: different pairs get different names. -/
theorem C18_names_distinct (k l : Nat) (h : unknownName k = unknownName l) : k = l := unknownName_injective h

theorem libsDiffer_false {f1 f2 : List GdbFrame} {i j : Nat} (h : LibsAgree f1 f2 i j) {a b : GdbFrame}
    (ha : f1[i]? = some a) (hb : f2[j]? = some b) : libsDiffer a b = false := by
  rw [Bool.eq_false_iff, ne_eq, libsDiffer_iff]
  rintro ⟨x, y, h1, h2, h3⟩
  exact h3 (h a b x y ha hb h1 h2)

theorem nextSimilar_true {f1 f2 : List GdbFrame} {i j : Nat} (h1 : nameAt f1 i = nameAt f2 j)
    (h2 : nameAt f1 i ≠ some (some c!"??")) (h3 : LibsAgree f1 f2 i j) : nextSimilar f1[i]? f2[j]? = true := by
  unfold nameAt at h1 h2
  cases e1 : f1[i]? with
  | none =>
    cases e2 : f2[j]? with
    | none => rfl
    | some b => rw [e1, e2] at h1; simp at h1
  | some a =>
    cases e2 : f2[j]? with
    | none => rw [e1, e2] at h1; simp at h1
    | some b =>
      rw [e1, e2] at h1
      rw [e1] at h2
      simp only [Option.map_some, Option.some.injEq] at h1
      simp only [Option.map_some, ne_eq, Option.some.injEq] at h2
      simp only [nextSimilar]
      rw [if_neg]
      rw [not_or, not_or, not_not, strcmp0_eq_zero, strcmp0_eq_zero, libsDiffer_false h3 e1 e2]
      exact ⟨h1, h2, by simp⟩

theorem nameAt_some {f : List GdbFrame} {i : Nat} {n : Option Str} (h : nameAt f i = some n) :
    ∃ a, f[i]? = some a ∧ a.functionName = n := by
  unfold nameAt at h
  exact Option.map_eq_some_iff.1 h

/-- C18: the threads stay as they are only if no two frames fit. -/
theorem C18_progress (f1 f2 : List GdbFrame) (h : pairUnknown f1 f2 = (f1, f2)) : ∀ i j, ¬ Fits f1 f2 i j := by
  obtain ⟨pairs, hp, hno⟩ := pairUnknown_spec f1 f2
  rw [h] at hp
  have : pairs = [] := by
    cases pairs with
    | nil => rfl
    | cons p ps =>
      obtain ⟨a, b, q1, q2, q3, q4, q5, q6, q7, q8⟩ := hp.renamed 0 p rfl
      have q6 : f1[p.1]? = some { a with functionName := some (unknownName 0) } := q6
      rw [q1, Option.some.injEq] at q6
      have := congrArg GdbFrame.functionName q6
      simp only [q3, Option.some.injEq] at this
      exact absurd this.symm (unknownName_ne 0)
  obtain ⟨g1, g2⟩ := hno this
  rintro i j ⟨u1, u2, ⟨n1, n2, n3⟩, l1, l2, l3⟩
  obtain ⟨a, ha, ua⟩ := nameAt_some u1
  obtain ⟨b, hb, ub⟩ := nameAt_some u2
  have hs := nextSimilar_true n2 n3 l2
  have ua' := (unknown_iff a).2 ua
  have ub' := (unknown_iff b).2 ub
  rcases n1 with ⟨rfl, rfl⟩ | ⟨hi, hj, p1, p2⟩
  · have : firstPair f1 f2 = true := by
      unfold firstPair
      rw [ha, hb]
      simp only [ua', ub', libsDiffer_false l1 ha hb]
      simpa using hs
    rw [g1] at this; cases this
  · have hlt := (List.getElem?_eq_some_iff.1 hb).1
    have hlti := (List.getElem?_eq_some_iff.1 ha).1
    have hf := g2 i j hi hj hlt ⟨a, ha, ua'⟩
    have e1 : f1[i - 1]? = some (f1[i - 1]'(by omega)) := List.getElem?_eq_getElem _
    have e2 : f2[j - 1]? = some (f2[j - 1]'(by omega)) := List.getElem?_eq_getElem _
    generalize f1[i - 1]'(by omega) = pa at e1
    generalize f2[j - 1]'(by omega) = pb at e2
    unfold nameAt at p1 p2
    rw [e1, e2] at p1
    rw [e1] at p2
    simp only [Option.map_some, Option.some.injEq] at p1
    simp only [Option.map_some, ne_eq, Option.some.injEq] at p2
    have upb : unknown pb = false := by
      rw [Bool.eq_false_iff, ne_eq, unknown_iff, ← p1]; exact p2
    have : laterPair f1 f2 i j = true := by
      unfold laterPair
      rw [ha, hb, e1, e2]
      simp only [ub', libsDiffer_false l1 ha hb, upb, hs, libsDiffer_false l3 e1 e2, strcmp0_eq_zero.2 p1]
      rfl
    rw [hf] at this; cases this

/-! ### Non-vacuity -/

/-- A frame with only a name. -/
def named (n : Str) : GdbFrame := { functionName := some n }

example : pairUnknown [named c!"??", named c!"f", named c!"??", named c!"main"]
    [named c!"g", named c!"f", named c!"??", named c!"main"] =
    ([named c!"??", named c!"f", named c!"__unknown_function_0", named c!"main"],
     [named c!"g", named c!"f", named c!"__unknown_function_0", named c!"main"]) := by decide +kernel
example : pairUnknown [named c!"??", named c!"f", named c!"??"] [named c!"??", named c!"f", named c!"??"] =
    ([named c!"__unknown_function_0", named c!"f", named c!"__unknown_function_1"],
     [named c!"__unknown_function_0", named c!"f", named c!"__unknown_function_1"]) := by decide +kernel
example : pairUnknown [named c!"??"] [named c!"f"] = ([named c!"??"], [named c!"f"]) := by decide +kernel

end Satyr.Normalize
