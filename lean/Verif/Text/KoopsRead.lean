import Verif.Text.KoopsSound
/-!
# The frames that a kernel prints are read completely
-/
namespace Satyr.Text.Koops
open Satyr.CStr Satyr.Frames

/-! ## The lines -/

/-- A function name that cannot be taken for something else: it does not begin with a bracket, a parenthesis, a question mark or
`0x`. -/
def Clear (f : Function) : Prop := ∀ n, f.name = some n → peek n ∉ c!"[(?" ∧ ∀ r, n ≠ c!"0x" ++ r

/-- The address before a function, which newer kernels do not print. -/
inductive OptAddress : Nat → Str → Prop
  | none : OptAddress 0 []
  | some {a : Nat} {t : Str} (h : AddressText a t) : OptAddress a t

/-- A line with a frame, as the kernels print it, without the end of the line. -/
inductive KernelLine : KoopsFrame → Str → Prop
  /-- ` [<ffffffff8105d660>] ? warn_slowpath_common+0x70/0xa0 [module]`, and the same without the address. -/
  | x86 {a : Nat} {f : Function} {rel : Bool} {w₀ at_ w₁ q w₂ ft w₃ : Str} (h₀ : Blank w₀) (ha : OptAddress a at_) (h₁ : Blank w₁)
      (hq : Question rel q) (h₂ : Blank w₂) (hf : FunctionBody f ft) (hc : Clear f) (h₃ : Blank w₃)
      (hn : at_ = [] → f.name ≠ none) : KernelLine (frameOf a rel f) (w₀ ++ (at_ ++ (w₁ ++ (q ++ (w₂ ++ (ft ++ w₃))))))
  /-- `([<000003ff8086d036>] will_oops_init+0x36/0x1000 [will_oops])`. -/
  | s390 {a : Nat} {f : Function} {rel : Bool} {w₀ at_ w₁ q w₂ ft w₃ w₄ : Str} (h₀ : Blank w₀) (ha : AddressText a at_) (h₁ : Blank w₁)
      (hq : Question rel q) (h₂ : Blank w₂) (hf : FunctionBody f ft) (hc : Clear f) (h₃ : Blank w₃) (h₄ : Blank w₄) :
      KernelLine (frameOf a rel f) (w₀ ++ (c!"(" ++ (at_ ++ (w₁ ++ (q ++ (w₂ ++ (ft ++ (w₃ ++ (c!")" ++ w₄)))))))))
  /-- `[<c0014990>] (unwind_backtrace+0x0/0xf4) from [<c005ccb8>] (__lock_acquire+0x14f8/0x1b98)`. -/
  | arm {a b : Nat} {f g : Function} {rel : Bool} {w₀ at_ w₁ q w₂ ft w₃ w₄ bt w₅ gt w₆ : Str} (h₀ : Blank w₀) (ha : AddressText a at_)
      (h₁ : Blank w₁) (hq : Question rel q) (h₂ : Blank w₂) (hf : FunctionBody f ft) (hc : Clear f) (h₃ : Blank w₃) (h₄ : Blank w₄)
      (hb : AddressText b bt) (h₅ : Blank w₅) (hg : FunctionBody g gt) (hcg : Clear g) (h₆ : Blank w₆) (hn : f.name ≠ none) :
      KernelLine (withFrom (frameOf a rel f) b g)
        (w₀ ++ (at_ ++ (w₁ ++ (q ++ (w₂ ++ (c!"(" ++ (ft ++ (c!")" ++ (w₃ ++ (c!"from" ++ (w₄ ++ (bt ++ (w₅ ++ (c!"(" ++ (gt ++ (c!")" ++ w₆))))))))))))))))
  /-- `[c000000008068df8] [c000000008068df8] .eeh_dev_check_failure+0x278/0x390 (unreliable)`. -/
  | ppc {sp a : Nat} {f : Function} {rel : Bool} {w₀ st w₁ at_ w₂ d ft w₃ u w₄ : Str} (h₀ : Blank w₀) (hs : AddressText sp st)
      (h₁ : Blank w₁) (ha : AddressText a at_) (h₂ : Blank w₂) (hd : Dot d) (hf : FunctionBody f ft) (hc : Clear f)
      (hdot : d = [] → ∀ n, f.name = some n → peek n ≠ '.') (h₃ : Blank w₃) (hu : Unreliable rel u) (h₄ : Blank w₄) :
      KernelLine (frameOf a rel f) (w₀ ++ (st ++ (w₁ ++ (at_ ++ (w₂ ++ (d ++ (ft ++ (w₃ ++ (u ++ w₄)))))))))
  /-- An address alone. -/
  | address {a : Nat} {w₀ ds : Str} (h₀ : Blank w₀) (ha : HexText a ds) : KernelLine { address := a } (w₀ ++ (c!"0x" ++ ds))

/-- `[<c0333330>] (shmem_getpage_gfp) from [<c031c7a0>] (generic_perform_write+0xa8/0x1c0)`; nothing may follow the last
parenthesis. -/
inductive ArmLine : KoopsFrame → Str → Prop
  | mk {a b : Nat} {f : Function} {rel : Bool} {w₀ at_ w₁ q w₂ n w₃ w₄ bt w₅ ft : Str} (h₀ : Blank w₀) (ha : AddressText a at_)
      (h₁ : Blank w₁) (hq : Question rel q) (h₂ : Blank w₂) (hn : FunctionName n) (h₃ : Blank w₃) (h₄ : Blank w₄)
      (hb : AddressText b bt) (h₅ : Blank w₅) (hf : FunctionBody f ft) (hc : Clear f) :
      ArmLine (withFrom (frameOf a rel ⟨some n, 0, 0, none⟩) b f)
        (w₀ ++ (at_ ++ (w₁ ++ (q ++ (w₂ ++ (c!"(" ++ (n ++ (c!")" ++ (w₃ ++ (c!"from" ++ (w₄ ++ (bt ++ (w₅ ++ (c!"(" ++ (ft ++ c!")")))))))))))))))

/-- The character after a function with its blanks. -/
def Stop (s : Str) : Prop := peek s ∉ c!" \t[" ∧ IsHex (peek s) = false

/-! ## Reading the parts -/

theorem Blank.nil : Blank [] := by simp [Blank]

theorem Blank.append {a b : Str} (ha : Blank a) (hb : Blank b) : Blank (a ++ b) := by
  intro c hc
  rcases List.mem_append.1 hc with h | h
  · exact ha c h
  · exact hb c h

/-- The first character of blanks and a text after them. -/
theorem Blank.peek_ne {w s : Str} {c : Char} (hw : Blank w) (hc : c ∉ c!" \t") (hs : peek s ≠ c) : peek (w ++ s) ≠ c := by
  cases w with
  | nil => exact hs
  | cons x w => rintro rfl; exact hc (hw _ List.mem_cons_self)

theorem Blank.peek_hex {w s : Str} (hw : Blank w) (hs : IsHex (peek s) = false) : IsHex (peek (w ++ s)) = false := by
  cases w with
  | nil => exact hs
  | cons x w =>
    have := hw x List.mem_cons_self
    rcases List.mem_cons.1 this with rfl | h
    · show IsHex ' ' = false; decide
    · rw [List.mem_singleton.1 h]; show IsHex '\t' = false; decide

theorem skipBlanks_read {w s : Str} (hw : Blank w) (hs : peek s ∉ c!" \t") : skipBlanks (w ++ s) = .ok s := by
  rw [skipBlanks, skipSpan_append hw hs, Out.bind_ok]

theorem skipBlanks_same {s : Str} (hs : peek s ∉ c!" \t") : skipBlanks s = .ok s := skipBlanks_read (w := []) Blank.nil hs

theorem hex_read {n : Nat} {ds rest : Str} (h : HexText n ds) (hr : IsHex (peek rest) = false) :
    parseHexUint64 (ds ++ rest) = .ok (ds.length, some n, rest) := by
  rw [C26_hex]
  simp only [(takeWhile_append_stop h.2.1 hr).1]
  rw [if_pos ⟨h.1, by rw [h.2.2.1]; exact h.2.2.2⟩, List.drop_left, h.2.2.1]

theorem hex0x_read {n : Nat} {ds rest : Str} (h : HexText n ds) (hr : IsHex (peek rest) = false) :
    parseHex0xUint64 (c!"0x" ++ (ds ++ rest)) = .ok (2 + ds.length, some n, rest) := by
  rw [C26_hex0x]
  show Out.ok (let ds' := (ds ++ rest).takeWhile IsHex
    if ds' ≠ [] ∧ hexValue ds' < 2 ^ 64 then (2 + ds'.length, some (hexValue ds'), (ds ++ rest).drop ds'.length) else _) = _
  simp only [(takeWhile_append_stop h.2.1 hr).1]
  rw [if_pos ⟨h.1, by rw [h.2.2.1]; exact h.2.2.2⟩, List.drop_left, h.2.2.1]

theorem hex0x_not {s : Str} (h : ∀ r, s ≠ c!"0x" ++ r) : parseHex0xUint64 s = .ok (0, none, s) := by
  rw [C26_hex0x]
  split
  · rename_i t; exact absurd rfl (h t)
  · rfl

theorem hex0x_peek {s : Str} (h : peek s ≠ '0') : parseHex0xUint64 s = .ok (0, none, s) :=
  hex0x_not (by rintro r rfl; exact h rfl)

theorem address_read {n : Nat} {u : Str} (h : AddressText n u) (rest : Str) : parseAddress (u ++ rest) = .ok (n, some rest) := by
  cases h with
  | @angle ds h =>
    have e : c!"[<" ++ ds ++ c!">]" ++ rest = '[' :: '<' :: (ds ++ ('>' :: ']' :: rest)) := by simp
    rw [e, parseAddress, skipChar_cons (by decide), Out.bind_ok, if_neg (by simp), skipChar_cons (by decide), Out.bind_ok,
      hex_read h (rest := '>' :: _) (show IsHex '>' = false by decide), Out.bind_ok, if_neg (by simpa using h.1), closeIf, if_pos rfl, skipChar_cons (by decide), Out.bind_ok,
      if_neg (by simp), skipChar_cons (by decide), Out.bind_ok]
    rfl
  | @square ds h =>
    have e : c!"[" ++ ds ++ c!"]" ++ rest = '[' :: (ds ++ (']' :: rest)) := by simp
    have hp : peek (ds ++ (']' :: rest)) ≠ '<' := by
      rw [peek_append h.1]
      intro hx
      obtain ⟨c, d, rfl⟩ := List.exists_cons_of_ne_nil h.1
      have := h.2.1 c List.mem_cons_self
      rw [show c = '<' from hx] at this
      exact absurd this (by decide)
    rw [e, parseAddress, skipChar_cons (by decide), Out.bind_ok, if_neg (by simp), skipChar_not (by decide) hp, Out.bind_ok,
      hex_read h (rest := ']' :: _) (show IsHex ']' = false by decide), Out.bind_ok, if_neg (by simpa using h.1), closeIf, if_neg (by simp), Out.bind_ok,
      if_neg (by simp), skipChar_cons (by decide), Out.bind_ok]
    rfl

theorem address_not {s : Str} (h : peek s ≠ '[') : parseAddress s = .ok (0, none) := by
  rw [parseAddress, skipChar_not (by decide) h, Out.bind_ok, if_pos rfl]

theorem AddressText.peek {n : Nat} {u : Str} (h : AddressText n u) (rest : Str) : CStr.peek (u ++ rest) = '[' := by
  cases h <;> rfl

theorem AddressText.ne {n : Nat} {u : Str} (h : AddressText n u) : u ≠ [] := by cases h <;> simp

theorem optModule_read {m : Option Str} {u rest : Str} (h : ModuleText m u) (hr : m = none → peek rest ≠ '[') :
    optModule (u ++ rest) = .ok (m, rest) := by
  cases h with
  | none =>
    rw [optModule, parseModuleName, List.nil_append, skipChar_not (by decide) (hr rfl), Out.bind_ok, if_pos rfl, Out.bind_ok]
  | @some m h =>
    have e : c!"[" ++ m ++ c!"]" ++ rest = '[' :: (m ++ (']' :: rest)) := by simp
    rw [optModule, e, parseModuleName, skipChar_cons (by decide), Out.bind_ok, if_neg (by simp),
      parseCspan_append h.2 (.inr (by show ']' ∈ c!" \t\n]"; decide)) h.1, Out.bind_ok]
    dsimp only
    rw [skipChar_cons (by decide), Out.bind_ok, Out.bind_ok]
    rfl

theorem optHex_read {n : Nat} {u rest : Str} (h : OptHex n u) (hr : IsHex (peek rest) = false) :
    ∃ k v, parseHex0xUint64 (u ++ rest) = .ok (k, v, rest) ∧ v.getD 0 = n := by
  cases h with
  | none =>
    refine ⟨0, none, ?_, rfl⟩
    rw [List.nil_append]
    exact hex0x_peek (by intro h; rw [h] at hr; exact absurd hr (by decide))
  | hex h => exact ⟨_, some n, by rw [List.append_assoc]; exact hex0x_read h hr, rfl⟩

/-- A function name does not look like a number. -/
theorem name_not_hex {n r : Str} (h : n ≠ []) (h0 : ∀ r, n ≠ c!"0x" ++ r) : ∀ q, n ++ (c!"+" ++ r) ≠ c!"0x" ++ q := by
  intro q hq
  match n, h, h0, hq with
  | [a], _, _, hq => exact absurd (by injection hq with _ hq; injection hq) (by decide : ¬ '+' = 'x')
  | a :: b :: n, _, h0, hq =>
    injection hq with h1 hq
    injection hq with h2 hq
    exact h0 n (by rw [h1, h2]; rfl)

/-- The end of a function in parentheses is never mistaken. -/
theorem functionTail_read {n o l w₁ w₂ mt rest : Str} {off len : Nat} {m : Option Str} (b : Bool) (ho : OptHex off o) (hl : OptHex len l)
    (h₁ : Blank w₁) (hm : ModuleText m mt) (h₂ : Blank w₂) (hr : Stop ((if b then c!")" else []) ++ rest)) :
    functionTail n b (c!"+" ++ (o ++ (c!"/" ++ (l ++ (w₁ ++ (mt ++ (w₂ ++ ((if b then c!")" else []) ++ rest)))))))) =
      .ok (some (⟨some n, off, len, m⟩, rest)) := by
  generalize hR : (if b then c!")" else []) ++ rest = R at hr
  obtain ⟨k1, v1, e1, hv1⟩ := optHex_read (rest := c!"/" ++ (l ++ (w₁ ++ (mt ++ (w₂ ++ R))))) ho (by show IsHex '/' = false; decide)
  have hR1 : peek R ∉ c!" \t" := fun h => hr.1 (by simp at h ⊢; tauto)
  have hR2 : peek R ≠ '[' := fun h => hr.1 (by rw [h]; decide)
  have hmr : IsHex (peek (mt ++ (w₂ ++ R))) = false := by
    cases hm with
    | none => exact h₂.peek_hex hr.2
    | some h => show IsHex '[' = false; decide
  have hmb : peek (mt ++ (w₂ ++ R)) ∉ c!" \t" ∨ mt = [] := by
    cases hm with
    | none => exact .inr rfl
    | some h => exact .inl (by show '[' ∉ c!" \t"; decide)
  obtain ⟨k2, v2, e2, hv2⟩ := optHex_read (rest := w₁ ++ (mt ++ (w₂ ++ R))) hl (h₁.peek_hex hmr)
  unfold functionTail
  rw [show c!"+" ++ (o ++ (c!"/" ++ (l ++ (w₁ ++ (mt ++ (w₂ ++ R)))))) = '+' :: (o ++ (c!"/" ++ (l ++ (w₁ ++ (mt ++ (w₂ ++ R)))))) from rfl,
    skipChar_cons (by decide), Out.bind_ok, if_neg (by simp), e1, Out.bind_ok]
  dsimp only
  rw [show c!"/" ++ (l ++ (w₁ ++ (mt ++ (w₂ ++ R)))) = '/' :: (l ++ (w₁ ++ (mt ++ (w₂ ++ R)))) from rfl, skipChar_cons (by decide),
    Out.bind_ok, if_neg (by simp), e2, Out.bind_ok]
  dsimp only
  have hclose : closeIf b ')' R = .ok (true, rest) := by
    rw [← hR, closeIf]
    cases b
    · rfl
    · rw [if_pos rfl]; exact skipChar_cons (by decide) _
  have hmod : ∃ s1 s2, skipBlanks (w₁ ++ (mt ++ (w₂ ++ R))) = .ok s1 ∧ optModule s1 = .ok (m, s2) ∧ skipBlanks s2 = .ok R := by
    cases hm with
    | none =>
      refine ⟨R, R, ?_, ?_, skipBlanks_same hR1⟩
      · rw [List.nil_append, ← List.append_assoc]
        exact skipBlanks_read (h₁.append h₂) hR1
      · exact optModule_read (u := []) .none fun _ => hR2
    | @some x h =>
      refine ⟨_, w₂ ++ R, skipBlanks_read h₁ (by show '[' ∉ c!" \t"; decide), optModule_read (.some h) (fun h => by cases h), skipBlanks_read h₂ hR1⟩
  obtain ⟨s1, s2, m1, m2, m3⟩ := hmod
  rw [m1, Out.bind_ok, m2, Out.bind_ok]
  dsimp only
  rw [m3, Out.bind_ok, hclose, Out.bind_ok, hv1, hv2]
  rfl

theorem FunctionBody.peek {f : Function} {t : Str} (h : FunctionBody f t) (hc : Clear f) (rest : Str) :
    CStr.peek (t ++ rest) ∉ c!" \t[(?" := by
  cases h with
  | @named n o l w₁ w₂ mt off len m hn ho hl h₁ hm h₂ =>
    rw [List.append_assoc, peek_append hn.1]
    have h1 := (hc n rfl).1
    obtain ⟨x, y, rfl⟩ := List.exists_cons_of_ne_nil hn.1
    have h2 := hn.2 x List.mem_cons_self
    show x ∉ c!" \t[(?"
    replace h1 : x ∉ c!"[(?" := h1
    intro h
    simp at h h1 h2
    tauto
  | address h => show '0' ∉ c!" \t[(?"; decide

/-- A function without parentheses is read; the blanks after it may be read or not. -/
theorem body_read {f : Function} {t w rest : Str} (h : FunctionBody f t) (hc : Clear f) (hw : Blank w) (hr : Stop rest) :
    ∃ w', Blank w' ∧ parseFunction (t ++ (w ++ rest)) = .ok (some (f, w' ++ rest)) := by
  have hp : CStr.peek (t ++ (w ++ rest)) ≠ '(' := fun hx => h.peek hc (w ++ rest) (by rw [hx]; decide)
  unfold parseFunction
  rw [skipChar_not (by decide) hp, Out.bind_ok]
  dsimp only
  cases h with
  | @named n o l w₁ w₂ mt off len m hn ho hl h₁ hm h₂ =>
    refine ⟨[], Blank.nil, ?_⟩
    have e : n ++ (c!"+" ++ (o ++ (c!"/" ++ (l ++ (w₁ ++ (mt ++ w₂)))))) ++ (w ++ rest) =
        n ++ (c!"+" ++ (o ++ (c!"/" ++ (l ++ (w₁ ++ (mt ++ ((w₂ ++ w) ++ ((if false then c!")" else []) ++ rest)))))))) := by
      simp
    rw [e, hex0x_not (name_not_hex hn.1 (hc n rfl).2), Out.bind_ok, if_neg (by simp),
      parseCspan_append hn.2 (.inr (by show '+' ∈ c!" \t\n)+<"; decide)) hn.1, Out.bind_ok]
    exact functionTail_read false ho hl h₁ hm (h₂.append hw) hr
  | @address a ds h =>
    refine ⟨w, hw, ?_⟩
    rw [List.append_assoc, hex0x_read h (hw.peek_hex hr.2), Out.bind_ok, if_pos (by simp)]
    dsimp only
    rw [closeIf, if_neg (by simp), Out.bind_ok]
    rfl

/-- A function in parentheses is read, whatever follows. -/
theorem paren_read {f : Function} {t : Str} (h : FunctionBody f t) (hc : Clear f) (rest : Str) :
    parseFunction (c!"(" ++ (t ++ (c!")" ++ rest))) = .ok (some (f, rest)) := by
  unfold parseFunction
  rw [show c!"(" ++ (t ++ (c!")" ++ rest)) = '(' :: (t ++ (c!")" ++ rest)) from rfl, skipChar_cons (by decide), Out.bind_ok]
  dsimp only
  cases h with
  | @named n o l w₁ w₂ mt off len m hn ho hl h₁ hm h₂ =>
    have e : n ++ (c!"+" ++ (o ++ (c!"/" ++ (l ++ (w₁ ++ (mt ++ w₂)))))) ++ (c!")" ++ rest) =
        n ++ (c!"+" ++ (o ++ (c!"/" ++ (l ++ (w₁ ++ (mt ++ (w₂ ++ ((if true then c!")" else []) ++ rest)))))))) := by
      simp
    rw [e, hex0x_not (name_not_hex hn.1 (hc n rfl).2), Out.bind_ok, if_neg (by simp),
      parseCspan_append hn.2 (.inr (by show '+' ∈ c!" \t\n)+<"; decide)) hn.1, Out.bind_ok]
    exact functionTail_read true ho hl h₁ hm h₂ ⟨by show ')' ∉ c!" \t["; decide, by show IsHex ')' = false; decide⟩
  | @address a ds h =>
    rw [List.append_assoc, hex0x_read h (by show IsHex ')' = false; decide), Out.bind_ok, if_pos (by simp)]
    dsimp only
    rw [closeIf, if_pos rfl, show c!")" ++ rest = ')' :: rest from rfl, skipChar_cons (by decide), Out.bind_ok]
    rfl

/-- What follows a line: its newline, or the end of the text. -/
def LineEnds (e rest : Str) : Prop := e = c!"\n" ∨ e = [] ∧ rest = []

theorem lineEnd_read {e rest : Str} (h : LineEnds e rest) : lineEnd (e ++ rest) = .ok (some rest) := by
  rcases h with rfl | ⟨rfl, rfl⟩
  · rw [show c!"\n" ++ rest = '\n' :: rest from rfl, lineEnd, if_neg (by show ¬ '\n' = '\x00'; decide), skipChar_cons (by decide), Out.bind_ok]
    rfl
  · rfl

theorem LineEnds.peek {e rest : Str} (h : LineEnds e rest) : CStr.peek (e ++ rest) ∉ c!" \t[(?.)f0<" := by
  rcases h with rfl | ⟨rfl, rfl⟩
  · show '\n' ∉ _; decide
  · show '\x00' ∉ _; decide

theorem LineEnds.stop {e rest : Str} (h : LineEnds e rest) : Stop (e ++ rest) := by
  rcases h with rfl | ⟨rfl, rfl⟩
  · exact ⟨by show '\n' ∉ _; decide, by show IsHex '\n' = false; decide⟩
  · exact ⟨by show '\x00' ∉ _; decide, by show IsHex '\x00' = false; decide⟩

theorem question_read {rel : Bool} {q : Str} (h : Question rel q) {s : Str} (hs : peek s ≠ '?') : skipChar (q ++ s) '?' = .ok (!rel, s) := by
  cases h with
  | reliable => exact skipChar_not (by decide) hs
  | unreliable => exact skipChar_cons (by decide) s

theorem Question.peek {rel : Bool} {q s : Str} (h : Question rel q) {c : Char} (hc : c ≠ '?') (hs : CStr.peek s ≠ c) : CStr.peek (q ++ s) ≠ c := by
  cases h with
  | reliable => exact hs
  | unreliable => exact fun h => hc h.symm

theorem not_blank {s : Str} (h1 : peek s ≠ ' ') (h2 : peek s ≠ '\t') : peek s ∉ c!" \t" := by simp [h1, h2]

theorem of_peek {s : Str} {c : Char} {cs : Str} (h : peek s ∉ cs) (hc : c ∈ cs) : peek s ≠ c := fun he => h (he ▸ hc)

/-- The two special formats do not apply if the line does not begin with a bracket. -/
theorem ppc_not {w s : Str} (hw : Blank w) (h : peek s ∉ c!" \t[") : parsePpc (w ++ s) = .ok none := by
  rw [parsePpc, skipBlanks_read hw (fun hx => h (by simp at hx ⊢; tauto)), Out.bind_ok, address_not (of_peek h (by decide)), Out.bind_ok]

theorem arm_not {w s : Str} (hw : Blank w) (h : peek s ∉ c!" \t[") : parseArm (w ++ s) = .ok none := by
  rw [parseArm, skipBlanks_read hw (fun hx => h (by simp at hx ⊢; tauto)), Out.bind_ok, address_not (of_peek h (by decide)), Out.bind_ok]

/-- Only the first address is there. -/
theorem ppc_one {w u w₁ s : Str} {a : Nat} (hw : Blank w) (hu : AddressText a u) (h₁ : Blank w₁) (h : peek s ∉ c!" \t[") :
    parsePpc (w ++ (u ++ (w₁ ++ s))) = .ok none := by
  rw [parsePpc, skipBlanks_read hw (by rw [hu.peek]; decide), Out.bind_ok, address_read hu, Out.bind_ok]
  dsimp only
  rw [skipBlanks_read h₁ (fun hx => h (by simp at hx ⊢; tauto)), Out.bind_ok, address_not (of_peek h (by decide)), Out.bind_ok]

theorem blanks_question {w₁ q w₂ s : Str} {rel : Bool} (h₁ : Blank w₁) (hq : Question rel q) (h₂ : Blank w₂) (h : peek s ∉ c!" \t?") :
    ∃ s1 s2, skipBlanks (w₁ ++ (q ++ (w₂ ++ s))) = .ok s1 ∧ skipChar s1 '?' = .ok (!rel, s2) ∧ skipBlanks s2 = .ok s := by
  have hb : peek s ∉ c!" \t" := fun hx => h (by simp at hx ⊢; tauto)
  cases hq with
  | reliable =>
    refine ⟨s, s, ?_, skipChar_not (by decide) (of_peek h (by decide)), skipBlanks_same hb⟩
    rw [List.nil_append, ← List.append_assoc]
    exact skipBlanks_read (h₁.append h₂) hb
  | unreliable => exact ⟨_, _, skipBlanks_read h₁ (by show '?' ∉ _; decide), skipChar_cons (by decide) _, skipBlanks_read h₂ hb⟩

theorem arm_one {w u w₁ q w₂ s : Str} {a : Nat} {rel : Bool} (hw : Blank w) (hu : AddressText a u) (h₁ : Blank w₁) (hq : Question rel q)
    (h₂ : Blank w₂) (h : peek s ∉ c!" \t?(") : parseArm (w ++ (u ++ (w₁ ++ (q ++ (w₂ ++ s))))) = .ok none := by
  obtain ⟨s1, s2, e1, e2, e3⟩ := blanks_question h₁ hq h₂ (s := s) (fun hx => h (by simp at hx ⊢; tauto))
  rw [parseArm, skipBlanks_read hw (by rw [hu.peek]; decide), Out.bind_ok, address_read hu, Out.bind_ok]
  dsimp only
  rw [e1, Out.bind_ok, e2, Out.bind_ok]
  dsimp only
  rw [e3, Out.bind_ok, skipChar_not (by decide) (of_peek h (by decide)), Out.bind_ok, if_pos rfl]

theorem generalFrom_none {s : Str} (h : peek s ≠ 'f') : generalFrom s = .ok (some (0, {}, s)) := by
  rcases skipString_cases s c!"from" with ⟨b, hb, -⟩ | hs
  · rw [hb] at h; exact absurd rfl h
  · rw [generalFrom, hs, if_pos rfl]

theorem lateModule_none {m : Option Str} {s : Str} (h : peek s ≠ '[') : lateModule m s = .ok (m, s) := by
  unfold lateModule
  cases m with
  | some x => rfl
  | none =>
    have := optModule_read (u := []) (rest := s) .none fun _ => h
    rw [List.nil_append] at this
    rw [if_neg (by simp), this, Out.bind_ok]
    rfl

theorem generalBody_plain {a : Nat} {f : Function} {rel : Bool} {w₁ q w₂ ft w₃ e rest : Str} (h₁ : Blank w₁) (hq : Question rel q)
    (h₂ : Blank w₂) (hf : FunctionBody f ft) (hc : Clear f) (h₃ : Blank w₃) (he : LineEnds e rest) :
    generalBody false a (w₁ ++ (q ++ (w₂ ++ (ft ++ (w₃ ++ (e ++ rest)))))) = .ok (some (frameOf a rel f, rest)) := by
  obtain ⟨s1, s2, e1, e2, e3⟩ := blanks_question h₁ hq h₂ (s := ft ++ (w₃ ++ (e ++ rest)))
    (fun hx => hf.peek hc _ (by revert hx; simp; tauto))
  obtain ⟨w', hw', e4⟩ := body_read hf hc h₃ he.stop
  have hp := he.peek
  rw [generalBody, e1, Out.bind_ok, e2, Out.bind_ok]
  dsimp only
  rw [e3, Out.bind_ok, e4, Out.bind_ok]
  dsimp only
  rw [skipBlanks_read hw' (not_blank (of_peek hp (by decide)) (of_peek hp (by decide))), Out.bind_ok,
    generalFrom_none (of_peek hp (by decide)), Out.bind_ok]
  dsimp only
  rw [lateModule_none (of_peek hp (by decide)), Out.bind_ok]
  dsimp only
  rw [generalEnd, if_neg (by simp), lineEnd_read he, Out.bind_ok, Bool.not_not]
  rfl

theorem generalBody_paren {a : Nat} {f : Function} {rel : Bool} {w₁ q w₂ ft w₃ w₄ e rest : Str} (h₁ : Blank w₁) (hq : Question rel q)
    (h₂ : Blank w₂) (hf : FunctionBody f ft) (hc : Clear f) (h₃ : Blank w₃) (h₄ : Blank w₄) (he : LineEnds e rest) :
    generalBody true a (w₁ ++ (q ++ (w₂ ++ (ft ++ (w₃ ++ (c!")" ++ (w₄ ++ (e ++ rest)))))))) = .ok (some (frameOf a rel f, rest)) := by
  obtain ⟨s1, s2, e1, e2, e3⟩ := blanks_question h₁ hq h₂ (s := ft ++ (w₃ ++ (c!")" ++ (w₄ ++ (e ++ rest)))))
    (fun hx => hf.peek hc _ (by revert hx; simp; tauto))
  obtain ⟨w', hw', e4⟩ := body_read (rest := c!")" ++ (w₄ ++ (e ++ rest))) hf hc h₃
    ⟨by show ')' ∉ c!" \t["; decide, by show IsHex ')' = false; decide⟩
  have hp := he.peek
  rw [generalBody, e1, Out.bind_ok, e2, Out.bind_ok]
  dsimp only
  rw [e3, Out.bind_ok, e4, Out.bind_ok]
  dsimp only
  rw [skipBlanks_read hw' (by show ')' ∉ c!" \t"; decide), Out.bind_ok, generalFrom_none (by show ')' ≠ 'f'; decide), Out.bind_ok]
  dsimp only
  rw [lateModule_none (by show ')' ≠ '['; decide), Out.bind_ok]
  dsimp only
  rw [generalEnd, if_pos rfl, show c!")" ++ (w₄ ++ (e ++ rest)) = ')' :: (w₄ ++ (e ++ rest)) from rfl, skipChar_cons (by decide),
    Out.bind_ok, if_neg (by simp)]
  dsimp only
  rw [skipBlanks_read h₄ (not_blank (of_peek hp (by decide)) (of_peek hp (by decide))), Out.bind_ok, lineEnd_read he, Out.bind_ok, Bool.not_not]
  rfl

theorem generalFrom_read {b : Nat} {g : Function} {w₄ bt w₅ gt w₆ s : Str} (h₄ : Blank w₄) (hb : AddressText b bt) (h₅ : Blank w₅)
    (hg : FunctionBody g gt) (hcg : Clear g) (h₆ : Blank w₆) (hs : peek s ∉ c!" \t") :
    generalFrom (c!"from" ++ (w₄ ++ (bt ++ (w₅ ++ (c!"(" ++ (gt ++ (c!")" ++ (w₆ ++ s)))))))) = .ok (some (b, g, s)) := by
  rw [generalFrom, skipString_append, if_neg (by simp)]
  dsimp only
  rw [skipBlanks_read h₄ (by rw [hb.peek]; decide), Out.bind_ok, address_read hb, Out.bind_ok]
  dsimp only
  rw [skipBlanks_read h₅ (by show '(' ∉ c!" \t"; decide), Out.bind_ok, paren_read hg hcg, Out.bind_ok]
  dsimp only
  rw [skipBlanks_read h₆ hs, Out.bind_ok]

theorem generalBody_arm {a b : Nat} {f g : Function} {rel : Bool} {w₁ q w₂ ft w₃ w₄ bt w₅ gt w₆ e rest : Str} (h₁ : Blank w₁)
    (hq : Question rel q) (h₂ : Blank w₂) (hf : FunctionBody f ft) (hc : Clear f) (h₃ : Blank w₃) (h₄ : Blank w₄)
    (hb : AddressText b bt) (h₅ : Blank w₅) (hg : FunctionBody g gt) (hcg : Clear g) (h₆ : Blank w₆) (he : LineEnds e rest) :
    generalBody false a (w₁ ++ (q ++ (w₂ ++ (c!"(" ++ (ft ++ (c!")" ++ (w₃ ++ (c!"from" ++ (w₄ ++ (bt ++ (w₅ ++ (c!"(" ++ (gt ++ (c!")" ++
      (w₆ ++ (e ++ rest)))))))))))))))) = .ok (some (withFrom (frameOf a rel f) b g, rest)) := by
  have hp := he.peek
  obtain ⟨s1, s2, e1, e2, e3⟩ := blanks_question h₁ hq h₂ (s := c!"(" ++ (ft ++ (c!")" ++ (w₃ ++ (c!"from" ++ (w₄ ++ (bt ++ (w₅ ++ (c!"(" ++
    (gt ++ (c!")" ++ (w₆ ++ (e ++ rest))))))))))))) (by show '(' ∉ c!" \t?"; decide)
  rw [generalBody, e1, Out.bind_ok, e2, Out.bind_ok]
  dsimp only
  rw [e3, Out.bind_ok, paren_read hf hc, Out.bind_ok]
  dsimp only
  rw [skipBlanks_read h₃ (by show 'f' ∉ c!" \t"; decide), Out.bind_ok,
    generalFrom_read h₄ hb h₅ hg hcg h₆ (not_blank (of_peek hp (by decide)) (of_peek hp (by decide))), Out.bind_ok]
  dsimp only
  rw [lateModule_none (of_peek hp (by decide)), Out.bind_ok]
  dsimp only
  rw [generalEnd, if_neg (by simp), lineEnd_read he, Out.bind_ok, Bool.not_not]
  rfl

theorem frame_of_general {s : Str} (h1 : parsePpc s = .ok none) (h2 : parseArm s = .ok none) : parseFrame s = parseGeneral s := by
  rw [parseFrame, h1, Out.bind_ok]
  dsimp only
  rw [h2, Out.bind_ok]

theorem general_addr {a : Nat} {w₀ at_ s : Str} (h₀ : Blank w₀) (ha : AddressText a at_) : parseGeneral (w₀ ++ (at_ ++ s)) = generalBody false a s := by
  rw [parseGeneral, skipBlanks_read h₀ (by rw [ha.peek]; decide), Out.bind_ok, skipChar_not (by decide) (by rw [ha.peek]; decide), Out.bind_ok,
    address_read ha, Out.bind_ok]

theorem general_paren {a : Nat} {w₀ at_ s : Str} (h₀ : Blank w₀) (ha : AddressText a at_) :
    parseGeneral (w₀ ++ (c!"(" ++ (at_ ++ s))) = generalBody true a s := by
  rw [parseGeneral, skipBlanks_read h₀ (by show '(' ∉ c!" \t"; decide), Out.bind_ok, show c!"(" ++ (at_ ++ s) = '(' :: (at_ ++ s) from rfl,
    skipChar_cons (by decide), Out.bind_ok]
  dsimp only
  rw [address_read ha, Out.bind_ok]

theorem general_noaddr {w₀ s : Str} (h₀ : Blank w₀) (h : peek s ∉ c!" \t[(") (hx : ∀ r, s ≠ c!"0x" ++ r) :
    parseGeneral (w₀ ++ s) = generalBody false 0 s := by
  rw [parseGeneral, skipBlanks_read h₀ (fun hx => h (by simp at hx ⊢; tauto)), Out.bind_ok, skipChar_not (by decide) (of_peek h (by decide)),
    Out.bind_ok, address_not (of_peek h (by decide)), Out.bind_ok]
  dsimp only
  rw [hex0x_not hx, Out.bind_ok, if_neg (by simp)]

/-- C74: a line as the kernels print it gives exactly the frame that it describes, and the rest of the text begins with the next
line. -/
theorem C74_read_partial {k : KoopsFrame} {t e rest : Str} (h : KernelLine k t) (he : LineEnds e rest) :
    parseFrame (t ++ (e ++ rest)) = .ok (some (k, rest)) := by
  cases h with
  | @x86 a f rel w₀ at_ w₁ q w₂ ft w₃ h₀ ha h₁ hq h₂ hf hc h₃ hn =>
    have hfp := hf.peek hc (w₃ ++ (e ++ rest))
    rw [show w₀ ++ (at_ ++ (w₁ ++ (q ++ (w₂ ++ (ft ++ w₃))))) ++ (e ++ rest) =
      w₀ ++ (at_ ++ (w₁ ++ (q ++ (w₂ ++ (ft ++ (w₃ ++ (e ++ rest))))))) by simp only [List.append_assoc]]
    cases ha with
    | some ha =>
      have hq2 : ∃ w s, w₁ ++ (q ++ (w₂ ++ (ft ++ (w₃ ++ (e ++ rest))))) = w ++ s ∧ Blank w ∧ peek s ∉ c!" \t[" := by
        cases hq with
        | reliable => exact ⟨w₁ ++ w₂, _, by rw [List.nil_append, List.append_assoc], h₁.append h₂, fun hx => hfp (by revert hx; simp; tauto)⟩
        | unreliable => exact ⟨w₁, _, rfl, h₁, by show '?' ∉ _; decide⟩
      obtain ⟨w, s, hws, hw, hs⟩ := hq2
      rw [frame_of_general (by rw [hws]; exact ppc_one h₀ ha hw hs) (arm_one h₀ ha h₁ hq h₂ fun hx => hfp (by revert hx; simp; tauto)),
        general_addr h₀ ha]
      exact generalBody_plain h₁ hq h₂ hf hc h₃ he
    | none =>
      have hname : ∀ r, ft ++ (w₃ ++ (e ++ rest)) ≠ c!"0x" ++ r := by
        cases hf with
        | @named n o l w₁ w₂ mt off len m hn' ho hl h₁ hm h₂ =>
          rw [List.append_assoc, List.append_assoc]
          exact name_not_hex hn'.1 (hc n rfl).2
        | address h => exact absurd rfl (hn rfl)
      have hq2 : ∃ w s w₁', w₀ ++ ([] ++ (w₁ ++ (q ++ (w₂ ++ (ft ++ (w₃ ++ (e ++ rest))))))) = w ++ s ∧ Blank w ∧ peek s ∉ c!" \t[(" ∧
          (∀ r, s ≠ c!"0x" ++ r) ∧ s = [] ++ (q ++ (w₁' ++ (ft ++ (w₃ ++ (e ++ rest))))) ∧ Blank w₁' := by
        cases hq with
        | reliable =>
          exact ⟨w₀ ++ (w₁ ++ w₂), _, [], by simp only [List.nil_append, List.append_assoc], h₀.append (h₁.append h₂),
            fun hx => hfp (by revert hx; simp; tauto), hname, rfl, Blank.nil⟩
        | unreliable =>
          exact ⟨w₀ ++ w₁, c!"?" ++ (w₂ ++ (ft ++ (w₃ ++ (e ++ rest)))), w₂, by simp only [List.nil_append, List.append_assoc], h₀.append h₁,
            by show '?' ∉ _; decide, fun r hr => absurd (show '?' = '0' by injection hr) (by decide), rfl, h₂⟩
      obtain ⟨w, s, w', hws, hw, hs, hx, hs', hw'⟩ := hq2
      rw [hws, frame_of_general (ppc_not hw fun hx => hs (by revert hx; simp; tauto)) (arm_not hw fun hx => hs (by revert hx; simp; tauto)),
        general_noaddr hw hs hx, hs']
      exact generalBody_plain Blank.nil hq hw' hf hc h₃ he
  | @s390 a f rel w₀ at_ w₁ q w₂ ft w₃ w₄ h₀ ha h₁ hq h₂ hf hc h₃ h₄ =>
    rw [show w₀ ++ (c!"(" ++ (at_ ++ (w₁ ++ (q ++ (w₂ ++ (ft ++ (w₃ ++ (c!")" ++ w₄)))))))) ++ (e ++ rest) =
      w₀ ++ (c!"(" ++ (at_ ++ (w₁ ++ (q ++ (w₂ ++ (ft ++ (w₃ ++ (c!")" ++ (w₄ ++ (e ++ rest)))))))))) by simp only [List.append_assoc]]
    rw [frame_of_general (ppc_not h₀ (by show '(' ∉ c!" \t["; decide)) (arm_not h₀ (by show '(' ∉ c!" \t["; decide)), general_paren h₀ ha]
    exact generalBody_paren h₁ hq h₂ hf hc h₃ h₄ he
  | @arm a b f g rel w₀ at_ w₁ q w₂ ft w₃ w₄ bt w₅ gt w₆ h₀ ha h₁ hq h₂ hf hc h₃ h₄ hb h₅ hg hcg h₆ hnn =>
    rw [show (w₀ ++ (at_ ++ (w₁ ++ (q ++ (w₂ ++ (c!"(" ++ (ft ++ (c!")" ++ (w₃ ++ (c!"from" ++ (w₄ ++ (bt ++ (w₅ ++ (c!"(" ++ (gt ++ (c!")" ++ w₆)))))))))))))))) ++ (e ++ rest) =
      w₀ ++ (at_ ++ (w₁ ++ (q ++ (w₂ ++ (c!"(" ++ (ft ++ (c!")" ++ (w₃ ++ (c!"from" ++ (w₄ ++ (bt ++ (w₅ ++ (c!"(" ++ (gt ++ (c!")" ++ (w₆ ++ (e ++ rest))))))))))))))))) by
      simp only [List.append_assoc]]
    generalize hS : c!"from" ++ (w₄ ++ (bt ++ (w₅ ++ (c!"(" ++ (gt ++ (c!")" ++ (w₆ ++ (e ++ rest)))))))) = S
    have hq2 : ∃ w s, w₁ ++ (q ++ (w₂ ++ (c!"(" ++ (ft ++ (c!")" ++ (w₃ ++ S)))))) = w ++ s ∧ Blank w ∧ peek s ∉ c!" \t[" := by
      cases hq with
      | reliable => exact ⟨w₁ ++ w₂, _, by rw [List.nil_append, List.append_assoc], h₁.append h₂, by show '(' ∉ _; decide⟩
      | unreliable => exact ⟨w₁, _, rfl, h₁, by show '?' ∉ _; decide⟩
    obtain ⟨w, s, hws, hw, hs⟩ := hq2
    have harm : parseArm (w₀ ++ (at_ ++ (w₁ ++ (q ++ (w₂ ++ (c!"(" ++ (ft ++ (c!")" ++ (w₃ ++ S))))))))) = .ok none := by
      obtain ⟨s1, s2, e1, e2, e3⟩ := blanks_question h₁ hq h₂ (s := c!"(" ++ (ft ++ (c!")" ++ (w₃ ++ S)))) (by show '(' ∉ c!" \t?"; decide)
      rw [parseArm, skipBlanks_read h₀ (by rw [ha.peek]; decide), Out.bind_ok, address_read ha, Out.bind_ok]
      dsimp only
      rw [e1, Out.bind_ok, e2, Out.bind_ok]
      dsimp only
      rw [e3, Out.bind_ok, show c!"(" ++ (ft ++ (c!")" ++ (w₃ ++ S))) = '(' :: (ft ++ (c!")" ++ (w₃ ++ S))) from rfl, skipChar_cons (by decide),
        Out.bind_ok, if_neg (by simp)]
      dsimp only
      cases hf with
      | @named n o l v₁ v₂ mt off len m hn ho hl g₁ hm g₂ =>
        rw [List.append_assoc, parseCspan_append hn.2 (.inr (by show '+' ∈ c!" \t\n)+<"; decide)) hn.1, Out.bind_ok]
        dsimp only
        rw [skipChar_not (by decide) (by show '+' ≠ ')'; decide), Out.bind_ok, if_pos rfl]
      | address h => exact absurd rfl hnn
    rw [frame_of_general (by rw [hws]; exact ppc_one h₀ ha hw hs) harm, general_addr h₀ ha, ← hS]
    exact generalBody_arm h₁ hq h₂ hf hc h₃ h₄ hb h₅ hg hcg h₆ he
  | @ppc sp a f rel w₀ st w₁ at_ w₂ d ft w₃ u w₄ h₀ hs h₁ ha h₂ hd hf hc hdot h₃ hu h₄ =>
    rw [show w₀ ++ (st ++ (w₁ ++ (at_ ++ (w₂ ++ (d ++ (ft ++ (w₃ ++ (u ++ w₄)))))))) ++ (e ++ rest) =
      w₀ ++ (st ++ (w₁ ++ (at_ ++ (w₂ ++ (d ++ (ft ++ (w₃ ++ (u ++ (w₄ ++ (e ++ rest)))))))))) by simp only [List.append_assoc]]
    have hp := he.peek
    have hpb := not_blank (of_peek hp (c := ' ') (by decide)) (of_peek hp (c := '\t') (by decide))
    have hfp := hf.peek hc
    -- the word and the end of the line
    have hrd : ∃ w' s6 n s7, Blank w' ∧ parseFunction (ft ++ (w₃ ++ (u ++ (w₄ ++ (e ++ rest))))) = .ok (some (f, w' ++ s6)) ∧
        peek s6 ∉ c!" \t" ∧ skipString s6 c!"(unreliable)" = (n, s7) ∧ (n == 0) = rel ∧ skipBlanks s7 = .ok (e ++ rest) := by
      cases hu with
      | reliable =>
        obtain ⟨w', hw', e4⟩ := body_read hf hc (h₃.append h₄) he.stop
        refine ⟨w', e ++ rest, 0, e ++ rest, hw', ?_, hpb, ?_, rfl, skipBlanks_same hpb⟩
        · rw [← e4, List.nil_append, List.append_assoc]
        · rcases skipString_cases (e ++ rest) c!"(unreliable)" with ⟨b, hb, -⟩ | hs
          · exact absurd (by rw [hb]; rfl) (of_peek hp (c := '(') (by decide))
          · exact hs
      | unreliable =>
        obtain ⟨w', hw', e4⟩ := body_read (rest := c!"(unreliable)" ++ (w₄ ++ (e ++ rest))) hf hc h₃
          ⟨by show '(' ∉ c!" \t["; decide, by show IsHex '(' = false; decide⟩
        exact ⟨w', _, _, _, hw', e4, by show '(' ∉ c!" \t"; decide, skipString_append _ _, rfl, skipBlanks_read h₄ hpb⟩
    obtain ⟨w', s6, n, s7, hw', r1, r2, r3, r4, r5⟩ := hrd
    have hdr : ∃ b, skipChar (d ++ (ft ++ (w₃ ++ (u ++ (w₄ ++ (e ++ rest)))))) '.' = .ok (b, ft ++ (w₃ ++ (u ++ (w₄ ++ (e ++ rest))))) ∧
        peek (d ++ (ft ++ (w₃ ++ (u ++ (w₄ ++ (e ++ rest)))))) ∉ c!" \t" := by
      cases hd with
      | none =>
        refine ⟨false, skipChar_not (by decide) ?_, fun hx => hfp (w₃ ++ (u ++ (w₄ ++ (e ++ rest)))) (by revert hx; rw [List.nil_append]; simp; tauto)⟩
        rw [List.nil_append]
        cases hf with
        | @named n o l v₁ v₂ mt off len m hn ho hl g₁ hm g₂ =>
          rw [List.append_assoc, peek_append hn.1]
          exact hdot rfl n rfl
        | address h => show '0' ≠ '.'; decide
      | dot => exact ⟨true, skipChar_cons (by decide) _, by show '.' ∉ c!" \t"; decide⟩
    obtain ⟨b, d1, d2⟩ := hdr
    rw [parseFrame, parsePpc, skipBlanks_read h₀ (by rw [hs.peek]; decide), Out.bind_ok, address_read hs, Out.bind_ok]
    dsimp only
    rw [skipBlanks_read h₁ (by rw [ha.peek]; decide), Out.bind_ok, address_read ha, Out.bind_ok]
    dsimp only
    rw [skipBlanks_read h₂ d2, Out.bind_ok, d1, Out.bind_ok]
    dsimp only
    rw [r1, Out.bind_ok]
    dsimp only
    rw [skipBlanks_read hw' r2, Out.bind_ok, r3]
    dsimp only
    rw [r5, Out.bind_ok, lineEnd_read he, Out.bind_ok, r4, Out.bind_ok]
    rfl
  | @address a w₀ ds h₀ ha =>
    have hp := he.peek
    rw [show w₀ ++ (c!"0x" ++ ds) ++ (e ++ rest) = w₀ ++ (c!"0x" ++ (ds ++ (e ++ rest))) by simp only [List.append_assoc]]
    rw [frame_of_general (ppc_not h₀ (by show '0' ∉ c!" \t["; decide)) (arm_not h₀ (by show '0' ∉ c!" \t["; decide)), parseGeneral,
      skipBlanks_read h₀ (by show '0' ∉ c!" \t"; decide), Out.bind_ok, skipChar_not (by decide) (by show '0' ≠ '('; decide), Out.bind_ok,
      address_not (by show '0' ≠ '['; decide), Out.bind_ok]
    dsimp only
    rw [hex0x_read ha he.stop.2, Out.bind_ok, if_pos (by simp)]
    dsimp only
    rw [lineEnd_read he, Out.bind_ok]
    rfl

/-- C74 for the short format of ARM: the frame is read exactly, and the rest of the text begins right after it. -/
theorem C74_arm_read_partial {k : KoopsFrame} {t : Str} (h : ArmLine k t) (rest : Str) : parseFrame (t ++ rest) = .ok (some (k, rest)) := by
  obtain ⟨h₀, ha, h₁, hq, h₂, hn, h₃, h₄, hb, h₅, hf, hc⟩ := h
  rename_i a b f rel w₀ at_ w₁ q w₂ n w₃ w₄ bt w₅ ft
  have e : (w₀ ++ (at_ ++ (w₁ ++ (q ++ (w₂ ++ (c!"(" ++ (n ++ (c!")" ++ (w₃ ++ (c!"from" ++ (w₄ ++ (bt ++ (w₅ ++ (c!"(" ++ (ft ++ c!")"))))))))))))))) ++ rest =
      w₀ ++ (at_ ++ (w₁ ++ (q ++ (w₂ ++ (c!"(" ++ (n ++ (c!")" ++ (w₃ ++ (c!"from" ++ (w₄ ++ (bt ++ (w₅ ++ (c!"(" ++ (ft ++ (c!")" ++ rest))))))))))))))) := by
    simp only [List.append_assoc]
  rw [e]
  generalize hS : c!"from" ++ (w₄ ++ (bt ++ (w₅ ++ (c!"(" ++ (ft ++ (c!")" ++ rest)))))) = S
  have hq2 : ∃ w s, w₁ ++ (q ++ (w₂ ++ (c!"(" ++ (n ++ (c!")" ++ (w₃ ++ S)))))) = w ++ s ∧ Blank w ∧ peek s ∉ c!" \t[" := by
    cases hq with
    | reliable => exact ⟨w₁ ++ w₂, _, by rw [List.nil_append, List.append_assoc], h₁.append h₂, by show '(' ∉ _; decide⟩
    | unreliable => exact ⟨w₁, _, rfl, h₁, by show '?' ∉ _; decide⟩
  obtain ⟨w, s, hws, hw, hs⟩ := hq2
  obtain ⟨s1, s2, e1, e2, e3⟩ := blanks_question h₁ hq h₂ (s := c!"(" ++ (n ++ (c!")" ++ (w₃ ++ S)))) (by show '(' ∉ c!" \t?"; decide)
  rw [parseFrame, show parsePpc (w₀ ++ (at_ ++ (w₁ ++ (q ++ (w₂ ++ (c!"(" ++ (n ++ (c!")" ++ (w₃ ++ S))))))))) = .ok none by
    rw [hws]; exact ppc_one h₀ ha hw hs, Out.bind_ok]
  dsimp only
  rw [parseArm, skipBlanks_read h₀ (by rw [ha.peek]; decide), Out.bind_ok, address_read ha, Out.bind_ok]
  dsimp only
  rw [e1, Out.bind_ok, e2, Out.bind_ok]
  dsimp only
  rw [e3, Out.bind_ok, show c!"(" ++ (n ++ (c!")" ++ (w₃ ++ S))) = '(' :: (n ++ (c!")" ++ (w₃ ++ S))) from rfl, skipChar_cons (by decide),
    Out.bind_ok, if_neg (by simp)]
  dsimp only
  rw [parseCspan_append hn.2 (.inr (by show ')' ∈ c!" \t\n)+<"; decide)) hn.1, Out.bind_ok]
  dsimp only
  rw [show c!")" ++ (w₃ ++ S) = ')' :: (w₃ ++ S) from rfl, skipChar_cons (by decide), Out.bind_ok, if_neg (by simp), armFrom, ← hS,
    skipBlanks_read h₃ (by show 'f' ∉ c!" \t"; decide), Out.bind_ok, skipString_append, if_neg (by simp)]
  dsimp only
  rw [skipBlanks_read h₄ (by rw [hb.peek]; decide), Out.bind_ok, address_read hb, Out.bind_ok]
  dsimp only
  rw [skipBlanks_read h₅ (by show '(' ∉ c!" \t"; decide), Out.bind_ok, paren_read hf hc, Out.bind_ok, Bool.not_not]
  rfl

/-! ## Lines that meet the hypotheses, and texts that do not -/

theorem clear_of {n : Str} {off len : Nat} {m : Option Str} (h : peek n ∉ c!"[(?") (h0 : peek n ≠ '0') : Clear ⟨some n, off, len, m⟩ := by
  rintro _ ⟨⟩
  exact ⟨h, fun r hr => h0 (by rw [hr]; rfl)⟩

/-- ` [<ffffffff8105d660>] ? vmx_run+0x70/0xa0 [kvm]`. -/
example : KernelLine { address := 0xffffffff8105d660, functionName := some c!"vmx_run", functionOffset := 0x70, functionLength := 0xa0, moduleName := some c!"kvm" }
    c!" [<ffffffff8105d660>] ? vmx_run+0x70/0xa0 [kvm]" :=
  .x86 (w₀ := c!" ") (at_ := c!"[<ffffffff8105d660>]") (w₁ := c!" ") (w₂ := c!" ") (ft := c!"vmx_run+0x70/0xa0 [kvm]") (w₃ := [])
    (f := ⟨some c!"vmx_run", 0x70, 0xa0, some c!"kvm"⟩)
    (by decide) (.some (.angle (ds := c!"ffffffff8105d660") (by decide))) (by decide) .unreliable (by decide)
    (.named (n := c!"vmx_run") (o := c!"0x70") (l := c!"0xa0") (w₁ := c!" ") (w₂ := []) (mt := c!"[kvm]") (by decide)
      (.hex (ds := c!"70") (by decide)) (.hex (ds := c!"a0") (by decide)) (by decide) (.some (m := c!"kvm") (by decide)) (by decide))
    (clear_of (by decide) (by decide)) (by decide) (by intro h; cases h)

/-- `([<3ff8086d036>] init+0x36/0x1000)`. -/
example : KernelLine { address := 0x3ff8086d036, reliable := true, functionName := some c!"init", functionOffset := 0x36, functionLength := 0x1000 }
    c!"([<3ff8086d036>] init+0x36/0x1000)" :=
  .s390 (w₀ := []) (at_ := c!"[<3ff8086d036>]") (w₁ := c!" ") (w₂ := []) (ft := c!"init+0x36/0x1000") (w₃ := []) (w₄ := [])
    (f := ⟨some c!"init", 0x36, 0x1000, none⟩)
    (by decide) (.angle (ds := c!"3ff8086d036") (by decide)) (by decide) .reliable (by decide)
    (.named (n := c!"init") (o := c!"0x36") (l := c!"0x1000") (w₁ := []) (w₂ := []) (mt := []) (by decide)
      (.hex (ds := c!"36") (by decide)) (.hex (ds := c!"1000") (by decide)) (by decide) .none (by decide))
    (clear_of (by decide) (by decide)) (by decide) (by decide)

/-- `[<c0014990>] (unwind+0x0/0xf4) from [<c005ccb8>] (lock+0x8/0x98)`. -/
example : KernelLine { address := 0xc0014990, reliable := true, functionName := some c!"unwind", functionOffset := 0, functionLength := 0xf4, fromAddress := 0xc005ccb8, fromFunctionName := some c!"lock", fromFunctionOffset := 8, fromFunctionLength := 0x98 }
    c!"[<c0014990>] (unwind+0x0/0xf4) from [<c005ccb8>] (lock+0x8/0x98)" :=
  .arm (w₀ := []) (at_ := c!"[<c0014990>]") (w₁ := c!" ") (w₂ := []) (ft := c!"unwind+0x0/0xf4") (w₃ := c!" ") (w₄ := c!" ")
    (bt := c!"[<c005ccb8>]") (w₅ := c!" ") (gt := c!"lock+0x8/0x98") (w₆ := []) (f := ⟨some c!"unwind", 0, 0xf4, none⟩) (g := ⟨some c!"lock", 8, 0x98, none⟩)
    (by decide) (.angle (ds := c!"c0014990") (by decide)) (by decide) .reliable (by decide)
    (.named (n := c!"unwind") (o := c!"0x0") (l := c!"0xf4") (w₁ := []) (w₂ := []) (mt := []) (by decide)
      (.hex (ds := c!"0") (by decide)) (.hex (ds := c!"f4") (by decide)) (by decide) .none (by decide))
    (clear_of (by decide) (by decide)) (by decide) (by decide) (.angle (ds := c!"c005ccb8") (by decide)) (by decide)
    (.named (n := c!"lock") (o := c!"0x8") (l := c!"0x98") (w₁ := []) (w₂ := []) (mt := []) (by decide)
      (.hex (ds := c!"8") (by decide)) (.hex (ds := c!"98") (by decide)) (by decide) .none (by decide))
    (clear_of (by decide) (by decide)) (by decide) (by simp)

/-- `[c00000000] [c00000008] .eeh_dev+0x278/0x390 (unreliable)`. -/
example : KernelLine { address := 0xc00000008, functionName := some c!"eeh_dev", functionOffset := 0x278, functionLength := 0x390 }
    c!"[c00000000] [c00000008] .eeh_dev+0x278/0x390 (unreliable)" :=
  .ppc (sp := 0xc00000000) (w₀ := []) (st := c!"[c00000000]") (w₁ := c!" ") (at_ := c!"[c00000008]") (w₂ := c!" ") (d := c!".") (ft := c!"eeh_dev+0x278/0x390")
    (w₃ := c!" ") (u := c!"(unreliable)") (w₄ := []) (f := ⟨some c!"eeh_dev", 0x278, 0x390, none⟩)
    (by decide) (.square (ds := c!"c00000000") (by decide)) (by decide) (.square (ds := c!"c00000008") (by decide)) (by decide) .dot
    (.named (n := c!"eeh_dev") (o := c!"0x278") (l := c!"0x390") (w₁ := []) (w₂ := []) (mt := []) (by decide)
      (.hex (ds := c!"278") (by decide)) (.hex (ds := c!"390") (by decide)) (by decide) .none (by decide))
    (clear_of (by decide) (by decide)) (by simp) (by decide) .unreliable (by decide)

/-- `[<c0333330>] (shmem) from [<c031c7a0>] (write+0xa8/0x1c0)`. -/
example : ArmLine { address := 0xc0333330, reliable := true, functionName := some c!"shmem", fromAddress := 0xc031c7a0, fromFunctionName := some c!"write", fromFunctionOffset := 0xa8, fromFunctionLength := 0x1c0 }
    c!"[<c0333330>] (shmem) from [<c031c7a0>] (write+0xa8/0x1c0)" :=
  .mk (w₀ := []) (at_ := c!"[<c0333330>]") (w₁ := c!" ") (w₂ := []) (n := c!"shmem") (w₃ := c!" ") (w₄ := c!" ") (bt := c!"[<c031c7a0>]")
    (w₅ := c!" ") (ft := c!"write+0xa8/0x1c0") (f := ⟨some c!"write", 0xa8, 0x1c0, none⟩)
    (by decide) (.angle (ds := c!"c0333330") (by decide)) (by decide) .reliable (by decide) (by decide) (by decide) (by decide)
    (.angle (ds := c!"c031c7a0") (by decide)) (by decide)
    (.named (n := c!"write") (o := c!"0xa8") (l := c!"0x1c0") (w₁ := []) (w₂ := []) (mt := []) (by decide)
      (.hex (ds := c!"a8") (by decide)) (.hex (ds := c!"1c0") (by decide)) (by decide) .none (by decide))
    (clear_of (by decide) (by decide))

/-- C74 does not hold for a bracket that is not closed: its digits are both the address and a part of the function name. -/
theorem C74_not_bracket : parseFrame c!"[ff+0x1/0x2\n" = .ok (some
    ({ address := 0xff, reliable := true, functionName := some c!"[ff", functionOffset := 1, functionLength := 2 }, [])) := by decide +kernel

/-- C74 does not hold for the short ARM format with an address in the place of the function: the address becomes a function name. -/
theorem C74_not_arm_address : ∃ k, parseFrame c!"[<1>] (0x2) from [<3>] (g+0x1/0x2)\n" = .ok (some (k, c!"\n")) ∧ k.functionName = some c!"0x2" :=
  ⟨{ address := 1, reliable := true, functionName := some c!"0x2", fromAddress := 3, fromFunctionName := some c!"g", fromFunctionOffset := 1, fromFunctionLength := 2 },
    by decide +kernel, rfl⟩

/-- C74 does not hold for a line with only an address: the frame is not reliable, although it is not marked so; with brackets it is. -/
theorem C74_not_marked : parseFrame c!"0xdeadbeef\n" = .ok (some ({ address := 0xdeadbeef, reliable := false }, [])) ∧
    parseFrame c!"[<deadbeef>] 0xdeadbeef\n" = .ok (some ({ address := 0xdeadbeef, reliable := true }, [])) := by decide +kernel

end Satyr.Text.Koops
