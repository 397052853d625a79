import Verif.Gdb.LibModel
import Verif.Lookup
/-!
# C55 (libraries), C65, C67: shared libraries
-/
namespace Satyr.Gdb
open Satyr.CStr Satyr.Normalize Satyr.Frames

/-! ## C55 -/

/-- C55: the library found is the first one whose range contains the address (both ends belong to the range); there is none
exactly if no range contains it. This holds for every address except the last one, which stands for an unknown address. -/
theorem C55_sharedlib_partial (l : List Sharedlib) (address : Nat) (h : address ≠ 2 ^ 64 - 1) :
    (∀ x, findLib l address = some x ↔ FirstWith (fun x => x.lo ≤ address ∧ address ≤ x.hi) l x) ∧
    (findLib l address = none ↔ ∀ x ∈ l, ¬ (x.lo ≤ address ∧ address ≤ x.hi)) := by
  unfold findLib
  rw [if_neg h]
  exact firstWith_loop (fun x : Sharedlib => x.lo ≤ address ∧ address ≤ x.hi) (findLibLoop address) rfl
    (fun x l => by rw [findLibLoop]) l

/-- C55: the last address is in no library, although a range may end with it. -/
theorem C55_not_last_address : findLib [{ lo := 2 ^ 64 - 4096, hi := 2 ^ 64 - 1 }] (2 ^ 64 - 1) = none := rfl

example : findLib [{ lo := 1, hi := 5 }, { lo := 0x1000, hi := 0x2000, soname := some c!"a" },
    { lo := 0x1000, hi := 0x2000, soname := some c!"b" }] 0x2000 =
    some { lo := 0x1000, hi := 0x2000, soname := some c!"a" } := by decide

/-! ## C65: names of libraries -/

/-- The short name of a library: what follows the last slash, up to and including the first `.so`. -/
def IsShort (soname short : Str) : Prop :=
  ∃ dir base, soname = dir ++ base ∧ (dir = [] ∨ dir.getLast? = some '/') ∧ '/' ∉ base ∧
    ((∃ version, base = short ++ version ∧ c!".so" <:+ short ∧
        ∀ a b, base = a ++ c!".so" ++ b → short.length ≤ a.length + 3) ∨
      (base = short ∧ ¬ ∃ a b, base = a ++ c!".so" ++ b))

theorem shortName_spec (soname : Str) : IsShort soname (shortName soname) := by
  have main : ∀ dir base, soname = dir ++ base → (dir = [] ∨ dir.getLast? = some '/') → '/' ∉ base →
      baseName soname = base → IsShort soname (shortName soname) := by
    intro dir base h1 h2 h3 h4
    refine ⟨dir, base, h1, h2, h3, ?_⟩
    unfold shortName
    rw [h4]
    cases hs : strstrI c!".so" base with
    | none => exact Or.inr ⟨rfl, strstrI_none hs⟩
    | some i =>
      obtain ⟨⟨a, b, e1, e2⟩, e3⟩ := strstrI_some hs
      left
      have et : strndup base (i + 3) = a ++ c!".so" := by
        rw [strndup, e1, ← e2]
        exact List.take_left' (by simp)
      dsimp only
      rw [et]
      refine ⟨b, e1, ⟨a, rfl⟩, fun a' b' h => ?_⟩
      have := e3 a' b' h
      simp
      omega
  cases hr : strrchrI '/' soname with
  | none => exact main [] soname rfl (Or.inl rfl) (strrchrI_none.1 hr) (by rw [baseName, hr])
  | some i =>
    obtain ⟨a, b, e1, e2, e3⟩ := strrchrI_some.1 hr
    refine main (a ++ ['/']) b (by simp [e1]) (Or.inr (by simp)) e2 ?_
    rw [baseName, hr]
    dsimp only
    rw [e1, ← e3, List.drop_append]
    simp

/-- C65: setting the names of the libraries changes nothing but the library names of the frames; a frame whose address is in a
library gets the short name of the first such library, and the other frames are left as they are. (The last address, which
stands for an unknown one, is in no library.) -/
theorem C65_libnames (libs : List Sharedlib) (frames : List GdbFrame) (h : ∀ l ∈ libs, l.soname ≠ none) :
    ∃ out, setLibnames libs frames = .ok out ∧ List.Forall₂ (fun f g =>
      (∃ l n s, FirstWith (fun x => x.lo ≤ f.address ∧ f.address ≤ x.hi) libs l ∧ f.address ≠ 2 ^ 64 - 1 ∧ l.soname = some n ∧
        IsShort n s ∧ g = { f with libraryName := some s }) ∨
      ((f.address = 2 ^ 64 - 1 ∨ ∀ x ∈ libs, ¬ (x.lo ≤ f.address ∧ f.address ≤ x.hi)) ∧ g = f)) frames out := by
  induction frames with
  | nil => exact ⟨[], rfl, .nil⟩
  | cons f fs ih =>
    obtain ⟨out, h1, h2⟩ := ih
    rw [setLibnames]
    by_cases ha : f.address = 2 ^ 64 - 1
    · have : findLib libs f.address = none := by unfold findLib; rw [if_pos ha]
      rw [this, h1]
      exact ⟨f :: out, rfl, .cons (Or.inr ⟨Or.inl ha, rfl⟩) h2⟩
    · have hs := C55_sharedlib_partial libs f.address ha
      cases hl : findLib libs f.address with
      | none =>
        rw [h1]
        exact ⟨f :: out, rfl, .cons (Or.inr ⟨Or.inr (hs.2.1 hl), rfl⟩) h2⟩
      | some l =>
        have hf := (hs.1 l).1 hl
        have hm : l ∈ libs := by obtain ⟨b, a, e, -⟩ := hf; rw [e]; simp
        obtain ⟨n, hn⟩ := Option.ne_none_iff_exists'.1 (h l hm)
        dsimp only
        rw [hn, h1]
        exact ⟨_, rfl, .cons (Or.inl ⟨l, n, _, hf, ha, hn, shortName_spec n, rfl⟩) h2⟩

example : setLibnames [{ lo := 0x1000, hi := 0x2000, soname := some c!"/usr/lib64/libc.so.6" }]
    [{ address := 0x1500 }, { address := 0x500 }] =
    .ok [{ address := 0x1500, libraryName := some c!"libc.so" }, { address := 0x500 }] := by decide

/-- C65: an unnamed library makes a null pointer be read. -/
theorem C65_not_unnamed : setLibnames [{ lo := 1, hi := 2 }] [{ address := 1 }] = .ub := by decide

/-! ## C67: the text of gdb -/

/-- Whether the symbols were read. -/
inductive Symbols where
  | yes | no | missing

def Symbols.text : Symbols → Str
  | .yes => c!"Yes"
  | .no => c!"No"
  | .missing => c!"Yes (*)"

/-- The codes of include/gdb/sharedlib.h:35-40. -/
def Symbols.code : Symbols → Int
  | .yes => 0
  | .no => 1
  | .missing => 2

/-- A line of `info sharedlibrary`: with the digits of the addresses, or without addresses. -/
structure LibLine where
  /-- The digits of the two addresses and the blanks after each. -/
  range : Option (Str × Str × Str × Str)
  /-- The blanks before the symbols, if there are no addresses. -/
  indent : Str
  symbols : Symbols
  gap : Str
  name : Str

def Blank (w : Str) : Prop := w ≠ [] ∧ ∀ c ∈ w, isSpace c = true

def HexDigits (ds : Str) : Prop := ds ≠ [] ∧ (∀ c ∈ ds, IsHex c = true) ∧ hexValue ds < 2 ^ 64

/-- The text before the symbols. -/
def LibLine.rangeText (l : LibLine) : Str :=
  match l.range with
  | none => l.indent
  | some (d1, w1, d2, w2) => c!"0x" ++ d1 ++ w1 ++ c!"0x" ++ d2 ++ w2

def LibLine.text (l : LibLine) : Str := l.rangeText ++ l.symbols.text ++ l.gap ++ l.name ++ c!"\n"

def LibLine.WF (l : LibLine) : Prop :=
  (match l.range with
    | none => Blank l.indent
    | some (d1, w1, d2, w2) => HexDigits d1 ∧ Blank w1 ∧ HexDigits d2 ∧ Blank w2) ∧
  Blank l.gap ∧ l.name ≠ [] ∧ '\n' ∉ l.name ∧ isSpace (peek l.name) = false ∧ peek l.name ≠ '('

/-- The library of a line. -/
def LibLine.lib (l : LibLine) : Sharedlib :=
  match l.range with
  | none => { lo := 2 ^ 64 - 1, hi := 2 ^ 64 - 1, symbols := l.symbols.code, soname := some l.name }
  | some (d1, _, d2, _) => { lo := hexValue d1, hi := hexValue d2, symbols := l.symbols.code, soname := some l.name }

/-- The text after the list: nothing, something that is neither blank nor a number, or blanks followed by something else than
`Yes` and `No`. -/
def Ends (s : Str) : Prop :=
  (isSpace (peek s) = false ∧ IsHex (peek s) = false ∧ peek s ≠ '+' ∧ peek s ≠ '-') ∨
  (∃ w r, s = w ++ r ∧ Blank w ∧ isSpace (peek r) = false ∧ peek r ≠ 'Y' ∧ peek r ≠ 'N')

theorem digitVal_ge {c : Char} (h : IsHex c = false) : digitVal c ≥ 16 := by
  by_contra hlt
  apply Bool.eq_false_iff.1 h
  have hc : c = Char.ofNat c.toNat := (Char.ofNat_toNat c).symm
  have key : ∀ n ∈ List.range' 48 10 ++ List.range' 97 6 ++ List.range' 65 6, IsHex (Char.ofNat n) = true := by decide
  rw [hc]
  apply key
  simp only [List.mem_append, List.mem_range'_1]
  unfold digitVal at hlt
  have le : ∀ a b : Char, a ≤ b ↔ a.toNat ≤ b.toNat := fun a b => Iff.rfl
  simp only [le] at hlt
  have e1 : '0'.toNat = 48 := rfl
  have e2 : '9'.toNat = 57 := rfl
  have e3 : 'a'.toNat = 97 := rfl
  have e4 : 'z'.toNat = 122 := rfl
  have e5 : 'A'.toNat = 65 := rfl
  have e6 : 'Z'.toNat = 90 := rfl
  rw [e1, e2, e3, e4, e5, e6] at hlt
  split at hlt
  · omega
  · split at hlt
    · omega
    · split at hlt <;> omega

theorem scanHex_none {s : Str} (h1 : isSpace (peek s) = false) (h2 : IsHex (peek s) = false) (h3 : peek s ≠ '+')
    (h4 : peek s ≠ '-') : scanHex s = none := by
  have hs : s.dropWhile isSpace = s := skipWs_of h1
  have h0 : ¬ peek s = '0' := by rintro e; rw [e] at h2; exact absurd h2 (by decide)
  have ht : s.takeWhile (fun c => decide (digitVal c < 16)) = [] := by
    cases s with
    | nil => rfl
    | cons c s => have := digitVal_ge h2; simpa using this
  unfold scanHex strtoull
  simp [hs, h3, h4, h0, ht]

theorem Ends.stop {s : Str} (h : Ends s) : libRange s = none ∨ ∃ lo hi t, libRange s = some (lo, hi, t) ∧ libSymbols t = none := by
  rcases h with ⟨h1, h2, h3, h4⟩ | ⟨w, r, rfl, h1, h2, h3, h4⟩
  · left
    unfold libRange
    rw [if_neg (by simp [h1]), scanHex_none h1 h2 h3 h4]
  · right
    refine ⟨_, _, r, by unfold libRange; rw [if_pos, skipWs_append h1.2 h2]; rw [peek_append h1.1]; obtain ⟨hne, hw⟩ := h1; cases w with
      | nil => exact absurd rfl hne
      | cons c w => exact hw c (by simp), ?_⟩
    have hy : ∀ p : Str, startsWith r ('Y' :: p) = false := by
      intro p
      cases r with
      | nil => rfl
      | cons c r =>
        have : ¬ 'Y' = c := fun e => h3 e.symm
        simp [startsWith, List.isPrefixOf_cons_cons, this]
    have hn : ∀ p : Str, startsWith r ('N' :: p) = false := by
      intro p
      cases r with
      | nil => rfl
      | cons c r =>
        have : ¬ 'N' = c := fun e => h4 e.symm
        simp [startsWith, List.isPrefixOf_cons_cons, this]
    unfold libSymbols
    rw [hy, hy, hn]
    rfl

theorem digit_ge {c : Char} (h : isSpace c = true) : digitVal c ≥ 16 ∧ c ≠ 'x' ∧ c ≠ 'X' := by
  have : ∀ c ∈ c!" \t\r\n\x0b\x0c", digitVal c ≥ 16 ∧ c ≠ 'x' ∧ c ≠ 'X' := by decide
  exact this c (by simpa [isSpace] using h)

theorem Blank.peek {w : Str} (h : Blank w) (s : Str) : isSpace (peek (w ++ s)) = true := by
  rw [peek_append h.1]
  obtain ⟨hne, h⟩ := h
  cases w with
  | nil => exact absurd rfl hne
  | cons c w => exact h c (by simp)

theorem symbols_peek (y : Symbols) (s : Str) : isSpace (peek (y.text ++ s)) = false ∧
    (digits16.contains (peek (y.text ++ s)) || isSpace (peek (y.text ++ s)) || peek (y.text ++ s) == 'x') = false := by
  cases y <;> exact ⟨rfl, rfl⟩

theorem libRange_line (l : LibLine) (h : l.WF) (rest : Str) :
    libRange (l.rangeText ++ (l.symbols.text ++ rest)) = some (l.lib.lo, l.lib.hi, l.symbols.text ++ rest) := by
  obtain ⟨h, -⟩ := h
  obtain ⟨range, indent, y, gap, name⟩ := l
  unfold libRange LibLine.rangeText LibLine.lib
  dsimp only at h ⊢
  rcases range with _ | ⟨d1, w1, d2, w2⟩
  · dsimp only at h ⊢
    rw [if_pos (h.peek _), skipWs_append h.2 (symbols_peek _ _).1]
  · obtain ⟨⟨a1, a2, a3⟩, h2, ⟨b1, b2, b3⟩, h4⟩ := h
    dsimp only
    have e : c!"0x" ++ d1 ++ w1 ++ c!"0x" ++ d2 ++ w2 ++ (y.text ++ rest) =
        c!"0x" ++ (d1 ++ (w1 ++ (c!"0x" ++ (d2 ++ (w2 ++ (y.text ++ rest)))))) := by simp
    rw [e, if_neg (by rw [peek_append (by simp)]; decide)]
    have g1 := digit_ge (h2.peek (c!"0x" ++ (d2 ++ (w2 ++ (y.text ++ rest)))))
    have g2 := digit_ge (h4.peek (y.text ++ rest))
    have s1 : scanHex (c!"0x" ++ (d1 ++ (w1 ++ (c!"0x" ++ (d2 ++ (w2 ++ (y.text ++ rest))))))) = some (hexValue d1, _) :=
      scanHex_digits [] d1 (w1 ++ (c!"0x" ++ (d2 ++ (w2 ++ (y.text ++ rest))))) true (by simp) a2 a1 a3 g1.1 g1.2
    have s2 : scanHex (w1 ++ (c!"0x" ++ (d2 ++ (w2 ++ (y.text ++ rest))))) = some (hexValue d2, _) :=
      scanHex_digits w1 d2 (w2 ++ (y.text ++ rest)) true h2.2 b2 b1 b3 g2.1 g2.2
    rw [s1]
    dsimp only
    rw [s2]
    dsimp only
    have hall : ∀ c ∈ c!"0x" ++ (d1 ++ (w1 ++ (c!"0x" ++ (d2 ++ w2)))),
        (digits16.contains c || isSpace c || c == 'x') = true := by
      intro c hc
      simp only [List.mem_append] at hc
      have hx : ∀ c ∈ c!"0x", (digits16.contains c || isSpace c || c == 'x') = true := by decide
      have hd : ∀ {d : Str}, (∀ c ∈ d, IsHex c = true) → c ∈ d → (digits16.contains c || isSpace c || c == 'x') = true := by
        intro d hd hm
        have := hex_mem (hd c hm)
        simp [this]
      have hw : ∀ {w : Str}, Blank w → c ∈ w → (digits16.contains c || isSpace c || c == 'x') = true := by
        intro w hw hm
        simp [hw.2 c hm]
      rcases hc with hc | hc | hc | hc | hc | hc
      · exact hx c hc
      · exact hd a2 hc
      · exact hw h2 hc
      · exact hx c hc
      · exact hd b2 hc
      · exact hw h4 hc
    have := (takeWhile_append_stop (b := y.text ++ rest) hall (symbols_peek y rest).2).2
    have e2 : c!"0x" ++ (d1 ++ (w1 ++ (c!"0x" ++ (d2 ++ (w2 ++ (y.text ++ rest)))))) =
        c!"0x" ++ (d1 ++ (w1 ++ (c!"0x" ++ (d2 ++ w2)))) ++ (y.text ++ rest) := by simp
    rw [e2, this]

theorem libSymbols_line (y : Symbols) (gap name rest : Str) (h : Blank gap) (h0 : name ≠ []) (hs : isSpace (peek name) = false)
    (hn : peek name ≠ '(') : libSymbols (y.text ++ (gap ++ (name ++ rest))) = some (y.code, gap ++ (name ++ rest)) := by
  cases y with
  | yes =>
    have h1 : startsWith (c!"Yes" ++ (gap ++ (name ++ rest))) c!"Yes (*)" = false := by
      obtain ⟨g, gs, rfl⟩ := List.exists_cons_of_ne_nil h.1
      obtain ⟨n, ns, rfl⟩ := List.exists_cons_of_ne_nil h0
      rw [Bool.eq_false_iff]
      intro hh
      obtain ⟨t, ht⟩ := (startsWith_split _ _).1 hh
      simp only [List.cons_append, List.nil_append, List.cons.injEq, true_and] at ht
      obtain ⟨-, ht⟩ := ht
      cases gs with
      | nil =>
        simp only [List.nil_append, List.cons.injEq] at ht
        exact hn ht.1
      | cons g2 gs =>
        simp only [List.cons_append, List.cons.injEq] at ht
        have := h.2 g2 (by simp)
        rw [ht.1] at this
        exact absurd this (by decide)
    unfold libSymbols
    rw [if_neg (by rw [Symbols.text, h1]; decide), if_pos (by simp [startsWith, Symbols.text])]
    rfl
  | no =>
    unfold libSymbols
    rw [if_neg (by simp [startsWith, Symbols.text]), if_neg (by simp [startsWith, Symbols.text]),
      if_pos (by simp [startsWith, Symbols.text])]
    rfl
  | missing =>
    unfold libSymbols
    rw [if_pos (by simp [startsWith, Symbols.text])]
    rfl

theorem parse_libLine (l : LibLine) (h : l.WF) (rest : Str) (fuel : Nat) :
    parseLibsLoop (fuel + 1) (l.text ++ rest) = (do return l.lib :: (← parseLibsLoop fuel rest)) := by
  have hw := h
  obtain ⟨-, h2, h3, h4, h5, h6⟩ := h
  have e : l.text ++ rest = l.rangeText ++ (l.symbols.text ++ (l.gap ++ (l.name ++ '\n' :: rest))) := by simp [LibLine.text]
  rw [e, parseLibsLoop, libRange_line l hw]
  dsimp only
  rw [libSymbols_line _ _ _ _ h2 h3 h5 h6]
  dsimp only
  have hsk : skipWs (l.gap ++ (l.name ++ '\n' :: rest)) = l.name ++ '\n' :: rest :=
    skipWs_append h2.2 (by rw [peek_append h3]; exact h5)
  have ht := takeWhile_append_stop (p := fun c => decide (c ≠ '\n')) (a := l.name) (b := '\n' :: rest)
    (fun c hc => by simp; rintro rfl; exact h4 hc) rfl
  rw [hsk, ht.1, ht.2]
  have el : ({ lo := l.lib.lo, hi := l.lib.hi, symbols := l.symbols.code, soname := some l.name } : Sharedlib) = l.lib := by
    unfold LibLine.lib
    rcases l.range with _ | ⟨d1, w1, d2, w2⟩ <;> rfl
  rw [el]
  rfl

theorem findSection_skip (ls : List Str) (h : ∀ l ∈ ls, '\n' ∉ l ∧ startsWith l c!"From" = false) (s : Str) :
    findSection true (ls.flatMap (fun l => l ++ ['\n']) ++ s) = findSection true s := by
  have step : ∀ (l s : Str), '\n' ∉ l → findSection false (l ++ '\n' :: s) = findSection true s := by
    intro l s hl
    induction l with
    | nil => rfl
    | cons c l ih =>
      rw [List.mem_cons, not_or] at hl
      have : (c == '\n') = false := by simpa using fun e => hl.1 e.symm
      rw [List.cons_append, findSection, this]
      exact ih hl.2
  induction ls with
  | nil => rfl
  | cons l ls ih =>
    obtain ⟨h1, h2⟩ := h l (by simp)
    have ih := ih fun x hx => h x (by simp [hx])
    have e : (l :: ls).flatMap (fun l => l ++ ['\n']) ++ s = l ++ '\n' :: (ls.flatMap (fun l => l ++ ['\n']) ++ s) := by simp
    rw [e]
    generalize ls.flatMap (fun l => l ++ ['\n']) ++ s = r at ih
    rw [← ih]
    cases l with
    | nil => rfl
    | cons c l =>
      rw [List.mem_cons, not_or] at h1
      have hh : headerRest (c :: l ++ '\n' :: r) = none := by
        unfold headerRest
        rw [if_neg]
        intro hp
        obtain ⟨t, ht⟩ := (startsWith_split _ _).1 hp
        apply Bool.eq_false_iff.1 h2
        rw [startsWith_split]
        rcases Nat.lt_or_ge (c :: l).length 4 with hlt | hge
        · exfalso
          have := congrArg (fun x => x[(c :: l).length]?) ht
          rw [List.getElem?_append_right (Nat.le_refl _), List.getElem?_append_left (by simpa using hlt)] at this
          simp only [Nat.sub_self, List.getElem?_cons_zero] at this
          have hm := List.mem_of_getElem? this.symm
          revert hm
          decide
        · refine ⟨(c :: l).drop 4, ?_⟩
          have h4 := congrArg (List.take 4) ht
          rw [List.take_append_of_le_length hge] at h4
          have h5 : List.take 4 (c!"From" ++ t) = c!"From" := rfl
          rw [h5] at h4
          rw [← h4, List.take_append_drop]
      have hc : (c == '\n') = false := by simpa using fun e => h1.1 e.symm
      rw [List.cons_append, findSection]
      rw [List.cons_append] at hh
      rw [if_pos rfl, hh, hc]
      exact step l r h1.2

/-- C67: from a text with the list of shared libraries after other lines, exactly the libraries of the lines are read, in
order. -/
theorem C67_lines (before : List Str) (w1 w2 w3 : Str) (lines : List LibLine) (rest : Str)
    (hb : ∀ l ∈ before, '\n' ∉ l ∧ startsWith l c!"From" = false) (h1 : Blank w1) (h2 : Blank w2) (h3 : Blank w3)
    (hl : ∀ l ∈ lines, l.WF) (hr : Ends rest) :
    parseLibs (before.flatMap (fun l => l ++ ['\n']) ++ (c!"From" ++ w1 ++ c!"To" ++ w2 ++ c!"Syms Read" ++ w3 ++
      c!"Shared Object Library\n" ++ (lines.flatMap LibLine.text ++ rest))) = .ok (lines.map LibLine.lib) := by
  unfold parseLibs
  rw [findSection_skip before hb]
  have hh : findSection true (c!"From" ++ w1 ++ c!"To" ++ w2 ++ c!"Syms Read" ++ w3 ++
      c!"Shared Object Library\n" ++ (lines.flatMap LibLine.text ++ rest)) = some (lines.flatMap LibLine.text ++ rest) := by
    have e : c!"From" ++ w1 ++ c!"To" ++ w2 ++ c!"Syms Read" ++ w3 ++
      c!"Shared Object Library\n" ++ (lines.flatMap LibLine.text ++ rest) = c!"From" ++ (w1 ++ (c!"To" ++ (w2 ++ (c!"Syms Read" ++
      (w3 ++ (c!"Shared Object Library\n" ++ (lines.flatMap LibLine.text ++ rest))))))) := by simp
    rw [e]
    generalize lines.flatMap LibLine.text ++ rest = r
    have hr : headerRest (c!"From" ++ (w1 ++ (c!"To" ++ (w2 ++ (c!"Syms Read" ++ (w3 ++ (c!"Shared Object Library\n" ++ r))))))) =
        some r := by
      unfold headerRest
      have d1 : skipWs ((c!"From" ++ (w1 ++ (c!"To" ++ (w2 ++ (c!"Syms Read" ++ (w3 ++ (c!"Shared Object Library\n" ++ r))))))).drop 4)
        = c!"To" ++ (w2 ++ (c!"Syms Read" ++ (w3 ++ (c!"Shared Object Library\n" ++ r)))) := skipWs_append h1.2 rfl
      have d2 : skipWs ((c!"To" ++ (w2 ++ (c!"Syms Read" ++ (w3 ++ (c!"Shared Object Library\n" ++ r))))).drop 2)
        = c!"Syms Read" ++ (w3 ++ (c!"Shared Object Library\n" ++ r)) := skipWs_append h2.2 rfl
      have d3 : skipWs ((c!"Syms Read" ++ (w3 ++ (c!"Shared Object Library\n" ++ r))).drop 9)
        = c!"Shared Object Library\n" ++ r := skipWs_append h3.2 rfl
      simp only [d1, d2, d3]
      rw [if_pos (by simp [startsWith]), if_pos (by simp [startsWith]), if_pos (by simp [startsWith]),
        if_pos (by simp [startsWith])]
      rfl
    have := findSection.eq_2 true 'F' (c!"rom" ++ (w1 ++ (c!"To" ++ (w2 ++ (c!"Syms Read" ++ (w3 ++ (c!"Shared Object Library\n" ++ r)))))))
    refine this.trans ?_
    rw [if_pos rfl]
    have hr' : headerRest ('F' :: (c!"rom" ++ (w1 ++ (c!"To" ++ (w2 ++ (c!"Syms Read" ++ (w3 ++ (c!"Shared Object Library\n" ++ r)))))))) =
      some r := hr
    rw [hr']
  rw [hh]
  dsimp only
  clear hh
  have key : ∀ fuel, (lines.flatMap LibLine.text ++ rest).length < fuel →
      parseLibsLoop fuel (lines.flatMap LibLine.text ++ rest) = .ok (lines.map LibLine.lib) := by
    induction lines with
    | nil =>
      intro fuel hf
      cases fuel with
      | zero => omega
      | succ fuel =>
        rw [List.flatMap_nil, List.nil_append, parseLibsLoop]
        rcases hr.stop with hr | ⟨lo, hi, t, hr1, hr2⟩
        · rw [hr]; rfl
        · rw [hr1]; dsimp only; rw [hr2]; rfl
    | cons l ls ih =>
      intro fuel hf
      have hp : 0 < l.text.length := by simp [LibLine.text]
      cases fuel with
      | zero => omega
      | succ fuel =>
        rw [List.flatMap_cons, List.append_assoc] at hf ⊢
        rw [parse_libLine l (hl l (by simp)),
          ih (fun x hx => hl x (by simp [hx])) fuel (by rw [List.length_append] at hf; omega)]
        rfl
  exact key _ (Nat.lt_succ_self _)

example : LibLine.WF { range := some (c!"00007ffff7dd7000", c!"  ", c!"00007ffff7df5000", c!"  "), indent := [],
                       symbols := .missing, gap := c!"     ", name := c!"/lib64/ld-linux-x86-64.so.2" } := by
  refine ⟨⟨⟨by decide, by decide, by decide +kernel⟩, ⟨by decide, by decide⟩, ⟨by decide, by decide, by decide +kernel⟩,
    by decide, by decide⟩, ⟨by decide, by decide⟩, by decide, by decide, by decide, by decide⟩

example : LibLine.WF { range := none, indent := c!"      ", symbols := .no, gap := c!"     ", name := c!"linux-vdso.so.1" } := by
  refine ⟨⟨by decide, by decide⟩, ⟨by decide, by decide⟩, by decide, by decide, by decide, by decide⟩

example : Ends [] ∧ Ends c!"\n(gdb)" ∧ Ends c!"$1 = 0" :=
  ⟨Or.inl (by decide), Or.inr ⟨c!"\n", c!"(gdb)", rfl, ⟨by decide, by decide⟩, by decide, by decide, by decide⟩, Or.inl (by decide)⟩

/-- C56 does not hold for the list of libraries: if the text ends without a newline after the name of a library, the text after
the terminating null character is read. -/
theorem C56_not_sharedlib : parseLibs c!"From To Syms Read Shared Object Library\n0x1 0x2 Yes /lib/a.so" = .ub := by decide +kernel

/-- The same happens after a line that has no name. -/
theorem C56_not_sharedlib_unnamed : parseLibs c!"From To Syms Read Shared Object Library\n0x1 0x2 Yes\n" = .ub := by decide +kernel

end Satyr.Gdb
