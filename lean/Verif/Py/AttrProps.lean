import Verif.Py.Attr
import Mathlib.Tactic.ByContra
import Mathlib.Data.List.TakeWhile
/-!
# Properties of the attributes of Python objects
-/
namespace Satyr.Py
open Satyr.CStr

/-! ## Specification -/

/-- The value that an attribute has after `v` was assigned; none if `v` is not a value of its type. -/
def meaning (acc : Access) (v : Value) : Option Value :=
  match acc with
  | .string =>
    match v with
    | .str s => some (.str s)
    | _ => none
  | .uint16 => inRange (2 ^ 16) v
  | .uint32 => inRange (2 ^ 32) v
  | .uint64 => if v = .none then some .none else inRange (2 ^ 64 - 1) v
  | .bool =>
    match v with
    | .none => some (.bool false)
    | .bool b => some (.bool b)
    | .int z => some (.bool (z != 0))
    | .str s => some (.bool (s != []))
    | .badStr => some (.bool true)
    | .other t => t.map .bool
where
  /-- A number from 0 to below the bound. -/
  inRange (bound : Int) (v : Value) : Option Value :=
    match v with
    | .int z => if 0 ≤ z ∧ z < bound then some (.int z) else none
    | .bool b => some (.int (if b then 1 else 0))
    | _ => none

/-- The text members of the structure are NULL or allocated texts, and no two of them are the same text. -/
structure WF (c : Class) (o : Obj) : Prop where
  valid : ∀ a ∈ attributes c, a.2.1 = .string →
    readN o.bytes (offset c a.2.2) 8 = 0 ∨ ∃ s, o.texts (readN o.bytes (offset c a.2.2) 8) = some (.heap s)
  apart : ∀ a ∈ attributes c, ∀ b ∈ attributes c, a.2.1 = .string → b.2.1 = .string → a.2.2 ≠ b.2.2 →
    readN o.bytes (offset c a.2.2) 8 ≠ 0 → readN o.bytes (offset c a.2.2) 8 ≠ readN o.bytes (offset c b.2.2) 8

/-! ## Lemmas -/

theorem readN_congr (m m' : Nat → Nat) : ∀ (w off : Nat), (∀ x, off ≤ x → x < off + w → m' x = m x) → readN m' off w = readN m off w
  | 0, _, _ => rfl
  | w + 1, off, h => by
    rw [readN, readN, h off (by omega) (by omega), readN_congr m m' w (off + 1) fun x h1 h2 => h x (by omega) (by omega)]

theorem readN_writeN_ne (m : Nat → Nat) (off w v off' w' : Nat) (h : off' + w' ≤ off ∨ off + w ≤ off') :
    readN (writeN m off w v) off' w' = readN m off' w' :=
  readN_congr _ _ w' off' fun x h1 h2 => if_neg (by omega)

theorem readN_writeN_aux (m : Nat → Nat) (off w v : Nat) : ∀ (k d : Nat), d + k = w →
    readN (writeN m off w v) (off + d) k = v / 256 ^ d % 256 ^ k
  | 0, d, _ => by rw [readN, Nat.pow_zero, Nat.mod_one]
  | k + 1, d, h => by
    rw [readN, show off + d + 1 = off + (d + 1) by omega, readN_writeN_aux m off w v k (d + 1) (by omega)]
    rw [writeN, if_pos (by omega), show off + d - off = d by omega, Nat.mod_mod, Nat.pow_succ, Nat.pow_succ,
      ← Nat.div_div_eq_div_mul, Nat.mul_comm (256 ^ k) 256, Nat.mod_mul]

theorem readN_writeN (m : Nat → Nat) (off w v : Nat) : readN (writeN m off w v) off w = v % 256 ^ w := by
  have := readN_writeN_aux m off w v w 0 (by omega)
  simpa using this

/-- The number of bytes that are accessed. -/
def Access.width : Access → Nat
  | .string | .uint64 => 8
  | .uint32 => 4
  | .uint16 => 2
  | .bool => 1

/-- All attributes have the type of their member, and different members do not overlap. -/
theorem table (c : Class) : ∀ a ∈ attributes c, ∀ b ∈ attributes c, a.2.2 ≠ b.2.2 →
    offset c a.2.2 + a.2.1.width ≤ offset c b.2.2 ∨ offset c b.2.2 + b.2.1.width ≤ offset c a.2.2 := by
  cases c <;> decide +kernel

theorem table_same (c : Class) : ∀ a ∈ attributes c, ∀ b ∈ attributes c, a.2.2 = b.2.2 → a.2.1 = b.2.1 := by
  cases c <;> decide +kernel

/-- Reading only depends on the bytes of the member and, for texts, on the text. -/
theorem getAt_congr (acc : Access) (off : Nat) (o o' : Obj) (hb : readN o'.bytes off acc.width = readN o.bytes off acc.width)
    (ht : acc = .string → readN o.bytes off 8 ≠ 0 → o'.texts (readN o.bytes off 8) = o.texts (readN o.bytes off 8)) :
    getAt acc off o' = getAt acc off o := by
  cases acc with
  | string =>
    simp only [Access.width] at hb
    simp only [getAt, hb]
    by_cases h : readN o.bytes off 8 = 0
    · rw [if_pos h, if_pos h]
    · rw [if_neg h, if_neg h, ht rfl h]
  | uint16 => simp only [Access.width] at hb; simp only [getAt, hb]
  | uint32 => simp only [Access.width] at hb; simp only [getAt, hb]
  | uint64 => simp only [Access.width] at hb; simp only [getAt, hb]
  | bool => simp only [Access.width] at hb; simp only [getAt, hb]

/-- Writing a number. -/
theorem set_number {c : Class} {a : Attr} (ha : a ∈ attributes c) (hs : a.2.1 ≠ .string) {o : Obj} (ho : WF c o) {w : Nat}
    (hw : a.2.1.width = w) (n : Nat) :
    (∀ b ∈ attributes c, b.2.2 ≠ a.2.2 → get c b { o with bytes := writeN o.bytes (offset c a.2.2) w n } = get c b o) ∧
    WF c { o with bytes := writeN o.bytes (offset c a.2.2) w n } := by
  subst hw
  have hne : ∀ b ∈ attributes c, b.2.2 ≠ a.2.2 → readN (writeN o.bytes (offset c a.2.2) a.2.1.width n) (offset c b.2.2) b.2.1.width =
      readN o.bytes (offset c b.2.2) b.2.1.width := by
    intro b hb hm
    refine readN_writeN_ne _ _ _ _ _ _ ?_
    rcases table c a ha b hb (Ne.symm hm) with h | h
    · exact .inr h
    · exact .inl h
  have hstr : ∀ b ∈ attributes c, b.2.1 = .string → readN (writeN o.bytes (offset c a.2.2) a.2.1.width n) (offset c b.2.2) 8 =
      readN o.bytes (offset c b.2.2) 8 := by
    intro b hb hbs
    have h1 : b.2.2 ≠ a.2.2 := fun h => hs (by rw [← table_same c b hb a ha h, hbs])
    have := hne b hb h1
    rw [hbs] at this
    exact this
  refine ⟨fun b hb hm => getAt_congr _ _ _ _ (hne b hb hm) fun _ _ => rfl, ⟨?_, ?_⟩⟩
  · intro b hb hbs
    dsimp only
    rw [hstr b hb hbs]
    exact ho.valid b hb hbs
  · intro b hb d hd hbs hds hbd hz
    dsimp only at hz ⊢
    rw [hstr b hb hbs] at hz
    rw [hstr b hb hbs, hstr d hd hds]
    exact ho.apart b hb d hd hbs hds hbd hz

theorem inRange_some {bound : Int} {v w : Value} (h : meaning.inRange bound v = some w) (h1 : 1 < bound) :
    ∃ z, v.asInt = some z ∧ 0 ≤ z ∧ z < bound ∧ w = .int z ∧ v ≠ .none := by
  unfold meaning.inRange at h
  split at h
  · next z =>
    split at h
    · next hz => cases h; exact ⟨z, rfl, hz.1, hz.2, rfl, by simp⟩
    · cases h
  · next b =>
    cases h
    refine ⟨_, rfl, ?_, ?_, rfl, by simp⟩ <;> cases b <;> simp <;> omega
  · cases h

theorem asLong_some {v : Value} {z : Int} (h : v.asInt = some z) (h0 : 0 ≤ z) (h1 : z < 2 ^ 32) : asLong v = some z := by
  rw [asLong, h]
  dsimp only
  rw [if_pos (by constructor <;> omega)]

theorem meaning_bool (v : Value) : meaning .bool v = (isTrue v).map .bool := by
  cases v <;> rfl

theorem pow2 : (256 : Nat) ^ 2 = 65536 := by decide
theorem pow4 : (256 : Nat) ^ 4 = 4294967296 := by decide
theorem pow8 : (256 : Nat) ^ 8 = 18446744073709551616 := by decide

/-- Writing a text. -/
theorem set_text (A : Allocator) {c : Class} {name member : Str} (ha : (name, Access.string, member) ∈ attributes c) {o : Obj} (ho : WF c o)
    (s : Str) (hs : '\x00' ∉ s) :
    setAt A .string (offset c member) (some (.str s)) o = .abort ∨
    ∃ o', setAt A .string (offset c member) (some (.str s)) o = .ok (.ok, o') ∧ getAt .string (offset c member) o' = .ok (.str s) ∧
      (∀ b ∈ attributes c, b.2.2 ≠ member → getAt b.2.1 (offset c b.2.2) o' = getAt b.2.1 (offset c b.2.2) o) ∧ WF c o' := by
  have htake : s.takeWhile (· != '\x00') = s := by
    rw [List.takeWhile_eq_self_iff]
    intro x hx
    simpa using fun e : x = '\x00' => hs (e ▸ hx)
  have hfree : ∃ m, freeText o.texts (readN o.bytes (offset c member) 8) = .ok m ∧
      (∀ x, x ≠ readN o.bytes (offset c member) 8 → m x = o.texts x) ∧ (∀ x, m x ≠ none → m x = o.texts x) := by
    unfold freeText
    rcases ho.valid _ ha rfl with h | ⟨s', h⟩
    · rw [if_pos h]
      exact ⟨_, rfl, fun _ _ => rfl, fun _ _ => rfl⟩
    · dsimp only at h
      rw [h]
      by_cases h0 : readN o.bytes (offset c member) 8 = 0
      · rw [if_pos h0]; exact ⟨_, rfl, fun _ _ => rfl, fun _ _ => rfl⟩
      · rw [if_neg h0]
        refine ⟨_, rfl, fun x hx => if_neg hx, fun x hx => ?_⟩
        by_cases hxp : x = readN o.bytes (offset c member) 8
        · exfalso; apply hx; rw [hxp]; exact if_pos rfl
        · exact if_neg hxp
  obtain ⟨m, hm, hm1, hm2⟩ := hfree
  cases hp : A.pick m with
  | none =>
    refine .inl ?_
    simp only [setAt, hm]
    show (dupText A m s).bind _ = _
    rw [dupText, hp]; rfl
  | some p =>
    obtain ⟨p1, p2, p3⟩ := A.free m p hp
    refine .inr ⟨{ bytes := writeN o.bytes (offset c member) 8 p, texts := setText m p (some (.heap s)) }, ?_, ?_, ?_⟩
    · simp only [setAt, hm]
      show (dupText A m s).bind _ = _
      rw [dupText, hp, htake]; rfl
    · simp only [getAt]
      rw [readN_writeN, pow8, Nat.mod_eq_of_lt (by omega), if_neg p2]
      simp [setText, Block.text]
    · -- the other attributes
      have hne : ∀ b ∈ attributes c, b.2.2 ≠ member →
          readN (writeN o.bytes (offset c member) 8 p) (offset c b.2.2) b.2.1.width =
          readN o.bytes (offset c b.2.2) b.2.1.width := by
        intro b hb hbm
        refine readN_writeN_ne _ _ _ _ _ _ ?_
        rcases table c _ ha b hb (Ne.symm hbm) with h | h
        · exact .inr h
        · exact .inl h
      have hself : readN (writeN o.bytes (offset c member) 8 p) (offset c member) 8 = p := by
        rw [readN_writeN, pow8, Nat.mod_eq_of_lt (by omega)]
      -- texts of other members are kept, and are not at `p`
      have hkeep : ∀ b ∈ attributes c, b.2.1 = .string → b.2.2 ≠ member → readN o.bytes (offset c b.2.2) 8 ≠ 0 →
          setText m p (some (.heap s)) (readN o.bytes (offset c b.2.2) 8) = o.texts (readN o.bytes (offset c b.2.2) 8) ∧
          readN o.bytes (offset c b.2.2) 8 ≠ p := by
        intro b hb hbs hbm hz
        have h1 := hm1 _ (ho.apart b hb _ ha hbs rfl hbm hz)
        have h2 : readN o.bytes (offset c b.2.2) 8 ≠ p := by
          intro e
          rcases ho.valid b hb hbs with h | ⟨s', h⟩
          · exact hz h
          · rw [e] at h h1
            rw [h1, h] at p1
            cases p1
        exact ⟨by rw [setText, if_neg h2, h1], h2⟩
      have hstr : ∀ b ∈ attributes c, b.2.1 = .string → b.2.2 ≠ member →
          readN (writeN o.bytes (offset c member) 8 p) (offset c b.2.2) 8 = readN o.bytes (offset c b.2.2) 8 := by
        intro b hb hbs hbm
        have := hne b hb hbm
        rw [hbs] at this
        exact this
      refine ⟨fun b hb hbm => getAt_congr b.2.1 (offset c b.2.2) o
        { bytes := writeN o.bytes (offset c member) 8 p, texts := setText m p (some (.heap s)) } (hne b hb hbm) fun hbs hz => ?_, ⟨?_, ?_⟩⟩
      · have h := (hkeep b hb hbs hbm hz).1
        dsimp only
        exact h
      · intro b hb hbs
        dsimp only
        by_cases hbm : b.2.2 = member
        · rw [hbm, hself]
          exact .inr ⟨s, if_pos rfl⟩
        · rw [hstr b hb hbs hbm]
          rcases ho.valid b hb hbs with h | ⟨s', h⟩
          · exact .inl h
          · by_cases hz : readN o.bytes (offset c b.2.2) 8 = 0
            · exact .inl hz
            · exact .inr ⟨s', by rw [(hkeep b hb hbs hbm hz).1, h]⟩
      · intro b hb d hd hbs hds hbd hz
        dsimp only at hz ⊢
        by_cases hbm : b.2.2 = member
        · have hdm : d.2.2 ≠ member := fun e => hbd (by rw [hbm, e])
          rw [hbm, hself, hstr d hd hds hdm]
          intro e
          by_cases hz' : readN o.bytes (offset c d.2.2) 8 = 0
          · exact p2 (by rw [e, hz'])
          · exact (hkeep d hd hds hdm hz').2 e.symm
        · rw [hstr b hb hbs hbm] at hz ⊢
          by_cases hdm : d.2.2 = member
          · rw [hdm, hself]
            exact (hkeep b hb hbs hbm hz).2
          · rw [hstr d hd hds hdm]
            exact ho.apart b hb d hd hbs hds hbd hz

/-! ## C103: attributes -/

/-- **C103.** Assigning a value of the right type to an attribute: the attribute then has this value; all attributes of other
members keep their values, and the object remains well-formed. -/
theorem C103_assign_partial (A : Allocator) (c : Class) (a : Attr) (ha : a ∈ attributes c) (o : Obj) (ho : WF c o) (v w : Value)
    (hw : meaning a.2.1 v = some w) (hnul : ∀ s, v = .str s → '\x00' ∉ s) :
    set A c a (some v) o = .abort ∨
    ∃ o', set A c a (some v) o = .ok (.ok, o') ∧ get c a o' = .ok w ∧
      (∀ b ∈ attributes c, b.2.2 ≠ a.2.2 → get c b o' = get c b o) ∧ WF c o' := by
  obtain ⟨name, acc, member⟩ := a
  unfold set get
  dsimp only at hw ⊢
  cases acc with
  | uint16 =>
    refine .inr ?_
    obtain ⟨z, h1, h2, h3, rfl, -⟩ := inRange_some hw (by decide)
    obtain ⟨h5, h6⟩ := set_number ha (by simp) ho (w := 2) rfl z.toNat
    have h7 := asLong_some h1 h2 (by omega)
    refine ⟨{ o with bytes := writeN o.bytes (offset c member) 2 z.toNat }, by simp only [setAt, h7]; rw [if_neg (by omega)], ?_, h5, h6⟩
    simp only [getAt]
    rw [readN_writeN, pow2, Nat.mod_eq_of_lt (by omega), Int.toNat_of_nonneg h2]
  | uint32 =>
    refine .inr ?_
    obtain ⟨z, h1, h2, h3, rfl, -⟩ := inRange_some hw (by decide)
    obtain ⟨n, hn⟩ : ∃ n, n = (z % 2 ^ 32).toNat := ⟨_, rfl⟩
    obtain ⟨h5, h6⟩ := set_number ha (by simp) ho (w := 4) rfl n
    have h7 := asLong_some h1 h2 (by omega)
    refine ⟨{ o with bytes := writeN o.bytes (offset c member) 4 n },
      by simp only [setAt, h7]; rw [if_neg (by omega), hn], ?_, h5, h6⟩
    simp only [getAt]
    rw [readN_writeN, pow4, hn, Int.emod_eq_of_lt h2 h3, Nat.mod_eq_of_lt (by omega), Int.toNat_of_nonneg h2]
  | uint64 =>
    refine .inr ?_
    by_cases hv : v = .none
    · subst hv
      obtain ⟨h5, h6⟩ := set_number ha (by simp) ho (w := 8) rfl (2 ^ 64 - 1)
      rw [show w = .none by simpa [meaning] using hw.symm]
      refine ⟨{ o with bytes := writeN o.bytes (offset c member) 8 (2 ^ 64 - 1) }, rfl, ?_, h5, h6⟩
      simp only [getAt]
      rw [readN_writeN, if_pos (by decide)]
    · rw [show meaning .uint64 v = meaning.inRange (2 ^ 64 - 1) v by simp only [meaning]; rw [if_neg hv]] at hw
      obtain ⟨z, h1, h2, h3, rfl, -⟩ := inRange_some hw (by decide)
      obtain ⟨n, hn⟩ : ∃ n, n = (z % 2 ^ 64).toNat := ⟨_, rfl⟩
      obtain ⟨h5, h6⟩ := set_number ha (by simp) ho (w := 8) rfl n
      refine ⟨{ o with bytes := writeN o.bytes (offset c member) 8 n }, by simp only [setAt]; simp only [h1, hn], ?_, h5, h6⟩
      simp only [getAt]
      rw [readN_writeN, pow8, hn, Int.emod_eq_of_lt h2 (by omega), Nat.mod_eq_of_lt (by omega), if_neg (by omega), Int.toNat_of_nonneg h2]
  | bool =>
    refine .inr ?_
    rw [meaning_bool] at hw
    obtain ⟨b, hb, rfl⟩ := Option.map_eq_some_iff.1 hw
    obtain ⟨h5, h6⟩ := set_number ha (by simp) ho (w := 1) rfl (if b then 1 else 0)
    refine ⟨{ o with bytes := writeN o.bytes (offset c member) 1 (if b then 1 else 0) }, by simp only [setAt, hb], ?_, h5, h6⟩
    simp only [getAt]
    rw [readN_writeN]
    cases b <;> rfl
  | string =>
    cases v with
    | str s =>
      cases hw
      exact set_text A ha ho s (hnul s rfl)
    | _ => simp [meaning] at hw

/-- Deleting an attribute, or assigning a value of the wrong type to a text or to a 16-bit number, raises an exception and changes
nothing. -/
theorem C103_refused_partial (A : Allocator) (c : Class) (a : Attr) (o : Obj) (rhs : Option Value)
    (h : rhs = none ∨ ∃ v, rhs = some v ∧ meaning a.2.1 v = none ∧ (a.2.1 = .string ∨ a.2.1 = .uint16)) :
    set A c a rhs o = .ok (.exception, o) := by
  obtain ⟨name, acc, member⟩ := a
  unfold set
  rcases h with rfl | ⟨v, rfl, hv, hacc⟩
  · rfl
  · dsimp only at hv hacc ⊢
    rcases hacc with rfl | rfl
    · cases v with
      | str s => cases hv
      | _ => rfl
    · have hr : meaning.inRange (2 ^ 16) v = none := hv
      unfold meaning.inRange at hr
      simp only [setAt]
      cases v with
      | int z =>
        simp only at hr
        simp only [asLong, Value.asInt]
        by_cases h1 : -2 ^ 63 ≤ z ∧ z < 2 ^ 63
        · rw [if_pos h1]
          dsimp only
          rw [if_pos]
          by_contra hc
          rw [if_pos (by constructor <;> omega)] at hr
          cases hr
        · rw [if_neg h1]
      | bool b => cases hr
      | _ => rfl

/-! ### Examples, and what is missing -/

/-- An object of which all bytes are 0. -/
def zero : Obj := { bytes := fun _ => 0, texts := fun _ => none }

theorem readN_zero : ∀ (w off : Nat), readN zero.bytes off w = 0
  | 0, _ => rfl
  | w + 1, off => by rw [readN, readN_zero w]; rfl

theorem zero_wf (c : Class) : WF c zero :=
  ⟨fun _ _ _ => .inl (readN_zero _ _), fun _ _ _ _ _ _ _ h => absurd (readN_zero _ _) h⟩

/-- An allocator: the first free address below 100. -/
def firstFree : Allocator where
  pick m := (List.range 100).find? fun p => (m p).isNone && p != 0
  free m p h := by
    have h1 := List.find?_some h
    have h2 := List.mem_range.1 (List.mem_of_find?_eq_some h)
    simp only [Bool.and_eq_true, Option.isNone_iff_eq_none, bne_iff_ne, ne_eq] at h1
    exact ⟨h1.1, h1.2, by omega⟩

def frameName : Attr := (c!"function_name", .string, c!"function_name")
def frameNumber : Attr := (c!"number", .uint32, c!"number")
def frameAddress : Attr := (c!"address", .uint64, c!"address")
def frameHandler : Attr := (c!"signal_handler_called", .bool, c!"signal_handler_called")

/-- The members of a frame of gdb are where the C compiler puts them. -/
example : (members .gdbFrame).map (fun x => offset .gdbFrame x.1) = [0, 8, 16, 24, 32, 40, 44, 48, 56, 64] := by decide +kernel

example : frameName ∈ attributes .gdbFrame ∧ frameNumber ∈ attributes .gdbFrame ∧ WF .gdbFrame zero ∧
    meaning frameName.2.1 (.str c!"main") = some (.str c!"main") ∧ meaning frameNumber.2.1 (.int 7) = some (.int 7) :=
  ⟨by decide +kernel, by decide +kernel, zero_wf _, rfl, rfl⟩

example : ∃ o o', set firstFree .gdbFrame frameName (some (.str c!"main")) zero = .ok (.ok, o) ∧
    set firstFree .gdbFrame frameNumber (some (.int 7)) o = .ok (.ok, o') ∧
    get .gdbFrame frameName o' = .ok (.str c!"main") ∧ get .gdbFrame frameNumber o' = .ok (.int 7) ∧
    get .gdbFrame frameAddress o' = .ok (.int 0) :=
  ⟨_, _, rfl, rfl, by decide +kernel, by decide +kernel, by decide +kernel⟩

/-- What is missing in C103: a number that is too large for a 32-bit attribute is accepted, and another one is stored. -/
theorem C103_not_uint32 : ∃ o', frameNumber ∈ attributes .gdbFrame ∧ meaning frameNumber.2.1 (.int 4294967296) = none ∧
    set firstFree .gdbFrame frameNumber (some (.int 4294967296)) zero = .ok (.ok, o') ∧ get .gdbFrame frameNumber o' = .ok (.int 0) :=
  ⟨_, by decide +kernel, by decide +kernel, rfl, by decide +kernel⟩

/-- What is missing in C103: negative numbers are accepted for 64-bit attributes, and other ones are stored; the largest one is
read as None. -/
theorem C103_not_uint64 : ∃ o' o'', frameAddress ∈ attributes .gdbFrame ∧ meaning frameAddress.2.1 (.int (-2)) = none ∧
    set firstFree .gdbFrame frameAddress (some (.int (-2))) zero = .ok (.ok, o') ∧
    get .gdbFrame frameAddress o' = .ok (.int 18446744073709551614) ∧
    set firstFree .gdbFrame frameAddress (some (.int 18446744073709551615)) zero = .ok (.ok, o'') ∧
    get .gdbFrame frameAddress o'' = .ok .none :=
  ⟨_, _, by decide +kernel, by decide +kernel, rfl, by decide +kernel, rfl, by decide +kernel⟩

/-- What is missing in C103: an object without truth value sets a Boolean attribute to true, although there is an exception. -/
theorem C103_not_bool : ∃ o', frameHandler ∈ attributes .gdbFrame ∧ meaning frameHandler.2.1 (.other none) = none ∧
    set firstFree .gdbFrame frameHandler (some (.other none)) zero = .ok (.okWithException, o') ∧
    get .gdbFrame frameHandler zero = .ok (.bool false) ∧ get .gdbFrame frameHandler o' = .ok (.bool true) :=
  ⟨_, by decide +kernel, rfl, rfl, by decide +kernel, by decide +kernel⟩

/-- What is missing in C103: a text with a NUL is cut off there. -/
theorem C103_not_nul : ∃ o', set firstFree .gdbFrame frameName (some (.str ['a', '\x00', 'b'])) zero = .ok (.ok, o') ∧
    get .gdbFrame frameName o' = .ok (.str ['a']) :=
  ⟨_, rfl, by decide +kernel⟩

/-- What is missing in C103: a text that is read as None cannot be assigned None. -/
theorem C103_not_none : get .gdbFrame frameName zero = .ok .none ∧
    set firstFree .gdbFrame frameName (some .none) zero = .ok (.exception, zero) :=
  ⟨by decide +kernel, rfl⟩

/-- A new report: the name of the reporter is a constant of the program. -/
def newReport : Obj :=
  { bytes := writeN (fun _ => 0) (offset .report c!"reporter_name") 8 5, texts := fun p => if p = 5 then some (.const c!"satyr") else none }

/-- What is missing in C103: assigning to the name of the reporter of a new report frees a constant. -/
theorem C103_not_constant : (c!"reporter_name", .string, c!"reporter_name") ∈ attributes .report ∧
    get .report (c!"reporter_name", .string, c!"reporter_name") newReport = .ok (.str c!"satyr") ∧
    set firstFree .report (c!"reporter_name", .string, c!"reporter_name") (some (.str c!"abrt")) newReport = .ub :=
  ⟨by decide +kernel, by decide +kernel, rfl⟩

/-! ## Every value -/

/-- A number that is no text, no None and no other object. -/
def number : Value → Option Int
  | .int z => some z
  | .bool true => some 1
  | .bool false => some 0
  | _ => none

/-- The value that an attribute has after `v` was assigned to it; none if `v` is refused: a text is cut at the first NUL character; a
32-bit number is any number from 0 to below 2^63, of which the remainder by 2^32 is kept; a 64-bit number is any number, of which the
remainder by 2^64 is kept, and 2^64 - 1 stands for None; a truth value that raises an exception counts as true. -/
def taken : Access → Value → Option Value
  | .string, .str s => some (.str (s.takeWhile (· ≠ '\x00')))
  | .string, _ => none
  | .uint16, v => (number v).bind fun z => if 0 ≤ z ∧ z < 2 ^ 16 then some (.int z) else none
  | .uint32, v => (number v).bind fun z => if 0 ≤ z ∧ z < 2 ^ 63 then some (.int (z % 2 ^ 32)) else none
  | .uint64, .none => some .none
  | .uint64, v => (number v).bind fun z => some (if z % 2 ^ 64 = 2 ^ 64 - 1 then .none else .int (z % 2 ^ 64))
  | .bool, v => some (.bool ((isTrue v).getD true))

theorem asInt_eq (v : Value) : v.asInt = number v := by
  cases v with
  | bool b => cases b <;> rfl
  | _ => rfl

theorem set_text' (A : Allocator) {c : Class} {name member : Str} (ha : (name, Access.string, member) ∈ attributes c) {o : Obj} (ho : WF c o)
    (s : Str) :
    setAt A .string (offset c member) (some (.str s)) o = .abort ∨
    ∃ o', setAt A .string (offset c member) (some (.str s)) o = .ok (.ok, o') ∧
      getAt .string (offset c member) o' = .ok (.str (s.takeWhile (· ≠ '\x00'))) ∧
      (∀ b ∈ attributes c, b.2.2 ≠ member → getAt b.2.1 (offset c b.2.2) o' = getAt b.2.1 (offset c b.2.2) o) ∧ WF c o' := by
  have hp : (fun x : Char => x != '\x00') = fun x => decide (x ≠ '\x00') := by
    funext x; by_cases h : x = '\x00' <;> simp [h]
  have h0 : '\x00' ∉ s.takeWhile (· ≠ '\x00') := by
    intro h
    have := List.mem_takeWhile_imp h
    simp at this
  have e : setAt A .string (offset c member) (some (.str s)) o =
      setAt A .string (offset c member) (some (.str (s.takeWhile (· ≠ '\x00')))) o := by
    simp only [setAt]
    congr 1
    funext m
    simp only [dupText, hp, List.takeWhile_idem]
  rw [e]
  exact set_text A ha ho _ h0

/-- **C103.** What every assignment does, for every value: without memory the program ends; a value is refused with an exception, and
nothing changes, exactly if `taken` has no value for it; otherwise the attribute has the value `taken`, all attributes of other members
keep their values, and the object remains well-formed. -/
theorem C103_every_value (A : Allocator) (c : Class) (a : Attr) (ha : a ∈ attributes c) (o : Obj) (ho : WF c o) (v : Value) :
    set A c a (some v) o = .abort ∨
    (taken a.2.1 v = none ∧ set A c a (some v) o = .ok (.exception, o)) ∨
    ∃ w r o', taken a.2.1 v = some w ∧ set A c a (some v) o = .ok (r, o') ∧
      (r = .ok ∨ r = .okWithException ∧ a.2.1 = .bool ∧ isTrue v = none) ∧ get c a o' = .ok w ∧
      (∀ b ∈ attributes c, b.2.2 ≠ a.2.2 → get c b o' = get c b o) ∧ WF c o' := by
  obtain ⟨name, acc, member⟩ := a
  unfold set get
  dsimp only
  cases acc with
  | uint16 =>
    refine .inr ?_
    simp only [setAt, asLong, asInt_eq, taken]
    cases number v with
    | none => exact .inl ⟨rfl, rfl⟩
    | some z =>
      simp only [Option.bind_some]
      by_cases h : 0 ≤ z ∧ z < 2 ^ 16
      · refine .inr ⟨.int z, .ok, { o with bytes := writeN o.bytes (offset c member) 2 z.toNat }, if_pos h, ?_, .inl rfl, ?_,
          (set_number ha (by simp) ho (w := 2) rfl z.toNat).1, (set_number ha (by simp) ho (w := 2) rfl z.toNat).2⟩
        · rw [if_pos (by omega)]
          dsimp only
          rw [if_neg (by omega)]
        · simp only [getAt]
          rw [readN_writeN, pow2, Nat.mod_eq_of_lt (by omega), Int.toNat_of_nonneg h.1]
      · refine .inl ⟨if_neg h, ?_⟩
        by_cases h1 : -2 ^ 63 ≤ z ∧ z < 2 ^ 63
        · rw [if_pos h1]
          dsimp only
          rw [if_pos (by omega)]
        · rw [if_neg h1]
  | uint32 =>
    refine .inr ?_
    simp only [setAt, asLong, asInt_eq, taken]
    cases number v with
    | none => exact .inl ⟨rfl, rfl⟩
    | some z =>
      simp only [Option.bind_some]
      by_cases h : 0 ≤ z ∧ z < 2 ^ 63
      · refine .inr ⟨.int (z % 2 ^ 32), .ok, { o with bytes := writeN o.bytes (offset c member) 4 (z % 2 ^ 32).toNat }, if_pos h, ?_, .inl rfl, ?_,
          (set_number ha (by simp) ho (w := 4) rfl _).1, (set_number ha (by simp) ho (w := 4) rfl _).2⟩
        · rw [if_pos (by omega)]
          dsimp only
          rw [if_neg (by omega)]
        · simp only [getAt]
          rw [readN_writeN, pow4, Nat.mod_eq_of_lt (by omega), Int.toNat_of_nonneg (by omega)]
      · refine .inl ⟨if_neg h, ?_⟩
        by_cases h1 : -2 ^ 63 ≤ z ∧ z < 2 ^ 63
        · rw [if_pos h1]
          dsimp only
          rw [if_pos (by omega)]
        · rw [if_neg h1]
  | uint64 =>
    refine .inr ?_
    by_cases hv : v = .none
    · subst hv
      refine .inr ⟨.none, .ok, { o with bytes := writeN o.bytes (offset c member) 8 (2 ^ 64 - 1) }, rfl, rfl, .inl rfl, ?_,
          (set_number ha (by simp) ho (w := 8) rfl _).1, (set_number ha (by simp) ho (w := 8) rfl _).2⟩
      simp only [getAt]
      rw [readN_writeN, if_pos (by decide)]
    · have e1 : taken .uint64 v = (number v).bind fun z => some (if z % 2 ^ 64 = 2 ^ 64 - 1 then .none else .int (z % 2 ^ 64)) := by
        cases v <;> first | rfl | exact absurd rfl hv
      have e2 : setAt A .uint64 (offset c member) (some v) o =
          match number v with
          | some z => .ok (.ok, { o with bytes := writeN o.bytes (offset c member) 8 (z % 2 ^ 64).toNat })
          | none => .ok (.exception, o) := by
        rw [← asInt_eq]
        cases v <;> first | rfl | exact absurd rfl hv
      rw [e1, e2]
      cases number v with
      | none => exact .inl ⟨rfl, rfl⟩
      | some z =>
        obtain ⟨n, hn⟩ : ∃ n, n = (z % 2 ^ 64).toNat := ⟨_, rfl⟩
        refine .inr ⟨_, .ok, { o with bytes := writeN o.bytes (offset c member) 8 n }, rfl, by rw [hn], .inl rfl, ?_,
          (set_number ha (by simp) ho (w := 8) rfl _).1, (set_number ha (by simp) ho (w := 8) rfl _).2⟩
        simp only [getAt]
        rw [readN_writeN, pow8, Nat.mod_eq_of_lt (by omega)]
        by_cases h : z % 2 ^ 64 = 2 ^ 64 - 1
        · rw [if_pos h, if_pos (by omega)]
        · rw [if_neg h, if_neg (by omega), hn, Int.toNat_of_nonneg (by omega)]
  | bool =>
    refine .inr (.inr ?_)
    have hs := set_number ha (by simp) ho (w := 1) rfl
    simp only [setAt, taken]
    cases hb : isTrue v with
    | none =>
      refine ⟨_, .okWithException, { o with bytes := writeN o.bytes (offset c member) 1 1 }, rfl, rfl, .inr (by simp), ?_, (hs _).1, (hs _).2⟩
      simp only [getAt]
      rw [readN_writeN]
      rfl
    | some b =>
      refine ⟨_, .ok, { o with bytes := writeN o.bytes (offset c member) 1 (if b then 1 else 0) }, rfl, rfl, .inl rfl, ?_, (hs _).1, (hs _).2⟩
      simp only [getAt]
      rw [readN_writeN]
      cases b <;> rfl
  | string =>
    cases v with
    | str s =>
      rcases set_text' A ha ho s with h | ⟨o', h1, h2, h3, h4⟩
      · exact .inl h
      · exact .inr (.inr ⟨_, .ok, o', rfl, h1, .inl rfl, h2, h3, h4⟩)
    | _ => exact .inr (.inl ⟨rfl, rfl⟩)

/-- The values of the right type are kept as they are. -/
theorem taken_of_meaning {acc : Access} {v w : Value} (h : meaning acc v = some w) (hnul : ∀ s, v = .str s → '\x00' ∉ s) :
    taken acc v = some w := by
  cases acc with
  | string =>
    cases v with
    | str s =>
      cases h
      show some (Value.str _) = _
      rw [List.takeWhile_eq_self_iff.2 fun x hx => ?_]
      simpa using fun e : x = '\x00' => hnul s rfl (e ▸ hx)
    | _ => cases h
  | uint16 =>
    obtain ⟨z, h1, h2, h3, rfl, -⟩ := inRange_some h (by decide)
    rw [asInt_eq] at h1
    simp only [taken, h1, Option.bind_some]
    exact if_pos ⟨h2, h3⟩
  | uint32 =>
    obtain ⟨z, h1, h2, h3, rfl, -⟩ := inRange_some h (by decide)
    rw [asInt_eq] at h1
    simp only [taken, h1, Option.bind_some]
    rw [if_pos ⟨h2, by omega⟩, Int.emod_eq_of_lt h2 h3]
  | uint64 =>
    by_cases hv : v = .none
    · subst hv
      simpa [meaning, taken] using h
    · rw [show meaning .uint64 v = meaning.inRange (2 ^ 64 - 1) v by simp only [meaning]; rw [if_neg hv]] at h
      obtain ⟨z, h1, h2, h3, rfl, -⟩ := inRange_some h (by decide)
      rw [asInt_eq] at h1
      have e1 : taken .uint64 v = (number v).bind fun z => some (if z % 2 ^ 64 = 2 ^ 64 - 1 then .none else .int (z % 2 ^ 64)) := by
        cases v <;> first | rfl | exact absurd rfl hv
      rw [e1, h1, Option.bind_some, Int.emod_eq_of_lt h2 (by omega), if_neg (by omega)]
  | bool =>
    rw [meaning_bool] at h
    obtain ⟨b, hb, rfl⟩ := Option.map_eq_some_iff.1 h
    simp only [taken, hb, Option.getD_some]

example : taken .uint32 (.int 4294967301) = some (.int 5) ∧ taken .uint32 (.int (-1)) = none ∧ taken .uint32 (.str c!"5") = none ∧
    taken .uint64 (.int (-2)) = some (.int 18446744073709551614) ∧ taken .uint64 (.int (-1)) = some .none ∧
    taken .uint16 (.int 65536) = none ∧ taken .string .none = none := by decide

end Satyr.Py
