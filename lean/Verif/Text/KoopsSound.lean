import Verif.Text.KoopsModel
/-!
# What is read from the lines of a kernel oops

The texts accepted by the parsers of lib/koops_frame.c, independently of how they are read, and the proof that every parser
reads such a text, for every input, and does nothing undefined.
-/
namespace Satyr.Text.Koops
open Satyr.CStr Satyr.Frames

/-! ## The texts -/

/-- Spaces and tabs. -/
def Blank (w : Str) : Prop := ∀ c ∈ w, c ∈ c!" \t"

instance (w : Str) : Decidable (Blank w) := inferInstanceAs (Decidable (∀ c ∈ w, c ∈ c!" \t"))

/-- A number below 2^64 in hexadecimal. -/
def HexText (n : Nat) (ds : Str) : Prop := ds ≠ [] ∧ (∀ c ∈ ds, IsHex c = true) ∧ hexValue ds = n ∧ n < 2 ^ 64

instance (n : Nat) (ds : Str) : Decidable (HexText n ds) :=
  inferInstanceAs (Decidable (ds ≠ [] ∧ (∀ c ∈ ds, IsHex c = true) ∧ hexValue ds = n ∧ n < 2 ^ 64))

/-- A number with `0x` before it; 0 if it is missing. -/
inductive OptHex : Nat → Str → Prop
  | none : OptHex 0 []
  | hex {n : Nat} {ds : Str} (h : HexText n ds) : OptHex n (c!"0x" ++ ds)

/-- An address in brackets. -/
inductive AddressText : Nat → Str → Prop
  | angle {n : Nat} {ds : Str} (h : HexText n ds) : AddressText n (c!"[<" ++ ds ++ c!">]")
  | square {n : Nat} {ds : Str} (h : HexText n ds) : AddressText n (c!"[" ++ ds ++ c!"]")

/-- The name of a module. -/
def ModuleName (m : Str) : Prop := m ≠ [] ∧ ∀ c ∈ m, c ∉ c!" \t\n]"

instance (m : Str) : Decidable (ModuleName m) := inferInstanceAs (Decidable (m ≠ [] ∧ ∀ c ∈ m, c ∉ c!" \t\n]"))

/-- A module in brackets, or nothing. -/
inductive ModuleText : Option Str → Str → Prop
  | none : ModuleText none []
  | some {m : Str} (h : ModuleName m) : ModuleText (some m) (c!"[" ++ m ++ c!"]")

/-- The name of a function. -/
def FunctionName (n : Str) : Prop := n ≠ [] ∧ ∀ c ∈ n, c ∉ c!" \t\n)+<"

instance (n : Str) : Decidable (FunctionName n) := inferInstanceAs (Decidable (n ≠ [] ∧ ∀ c ∈ n, c ∉ c!" \t\n)+<"))

/-- A function with offset, length and module, or an address, which says nothing about a function. -/
inductive FunctionBody : Function → Str → Prop
  | named {n o l w₁ w₂ mt : Str} {off len : Nat} {m : Option Str} (hn : FunctionName n) (ho : OptHex off o) (hl : OptHex len l)
      (h₁ : Blank w₁) (hm : ModuleText m mt) (h₂ : Blank w₂) :
      FunctionBody ⟨some n, off, len, m⟩ (n ++ (c!"+" ++ (o ++ (c!"/" ++ (l ++ (w₁ ++ (mt ++ w₂)))))))
  | address {a : Nat} {ds : Str} (h : HexText a ds) : FunctionBody {} (c!"0x" ++ ds)

/-- A function, which may stand in parentheses. -/
inductive FunctionText : Function → Str → Prop
  | plain {f : Function} {t : Str} (h : FunctionBody f t) : FunctionText f t
  | paren {f : Function} {t : Str} (h : FunctionBody f t) : FunctionText f (c!"(" ++ t ++ c!")")

/-- The end of a line or of the text, before `rest`. -/
inductive EndText (rest : Str) : Str → Prop
  | newline : EndText rest c!"\n"
  | eof (h : peek rest = '\x00') : EndText rest []

/-- A caller after the word `from`, or nothing. -/
inductive FromText : Nat → Function → Str → Prop
  | none : FromText 0 {} []
  | some {a : Nat} {f : Function} {w₁ w₂ w₃ at_ ft : Str} (h₁ : Blank w₁) (ha : AddressText a at_) (h₂ : Blank w₂)
      (hf : FunctionText f ft) (h₃ : Blank w₃) : FromText a f (c!"from" ++ (w₁ ++ (at_ ++ (w₂ ++ (ft ++ w₃)))))

/-- The question mark of a frame that is not reliable. -/
inductive Question : Bool → Str → Prop
  | reliable : Question true []
  | unreliable : Question false c!"?"

/-- The word of a frame that is not reliable. -/
inductive Unreliable : Bool → Str → Prop
  | reliable : Unreliable true []
  | unreliable : Unreliable false c!"(unreliable)"

/-- The dot before a function on PowerPC. -/
inductive Dot : Str → Prop
  | none : Dot []
  | dot : Dot c!"."

/-- The module after the caller, unless the function has one already. -/
inductive LateModule : Option Str → Option Str → Str → Prop
  | before {m : Str} : LateModule (some m) (some m) []
  | none : LateModule none none []
  | some {m w : Str} (h : ModuleName m) (hw : Blank w) : LateModule none (some m) (c!"[" ++ m ++ c!"]" ++ w)

/-- The address at the beginning of a frame. (In `broken` the address is taken from a bracket that is not closed and that is
also the beginning of the function name.) -/
inductive StartText : Nat → Str → Str → Prop
  | address {a : Nat} {t : Str} {after : Str} (h : AddressText a t) : StartText a t after
  | none {after : Str} : StartText 0 [] after
  | broken {a : Nat} {ds after : Str} (h : HexText a ds) : StartText a [] (c!"[" ++ ds ++ after)
  | brokenAngle {a : Nat} {ds after : Str} (h : HexText a ds) : StartText a [] (c!"[<" ++ ds ++ after)

/-- The text of a frame, with the end of its line, before `rest`. -/
inductive FrameText (rest : Str) : KoopsFrame → Str → Prop
  | ppc {sp a : Nat} {f : Function} {rel : Bool} {w₀ st w₁ at_ w₂ d ft w₃ u w₄ e : Str} (h₀ : Blank w₀) (hs : AddressText sp st)
      (h₁ : Blank w₁) (ha : AddressText a at_) (h₂ : Blank w₂) (hd : Dot d) (hf : FunctionText f ft) (h₃ : Blank w₃)
      (hu : Unreliable rel u) (h₄ : Blank w₄) (he : EndText rest e) :
      FrameText rest (frameOf a rel f) (w₀ ++ (st ++ (w₁ ++ (at_ ++ (w₂ ++ (d ++ (ft ++ (w₃ ++ (u ++ (w₄ ++ e))))))))))
  | arm {a b : Nat} {f : Function} {rel : Bool} {w₀ at_ w₁ q w₂ n w₃ w₄ bt w₅ ft : Str} (h₀ : Blank w₀) (ha : AddressText a at_)
      (h₁ : Blank w₁) (hq : Question rel q) (h₂ : Blank w₂) (hn : FunctionName n) (h₃ : Blank w₃) (h₄ : Blank w₄)
      (hb : AddressText b bt) (h₅ : Blank w₅) (hf : FunctionText f ft) :
      FrameText rest (withFrom (frameOf a rel ⟨some n, 0, 0, none⟩) b f)
        (w₀ ++ (at_ ++ (w₁ ++ (q ++ (w₂ ++ (c!"(" ++ (n ++ (c!")" ++ (w₃ ++ (c!"from" ++ (w₄ ++ (bt ++ (w₅ ++ ft)))))))))))))
  | plain {a b : Nat} {f g : Function} {rel : Bool} {m : Option Str} {w₀ st w₁ q w₂ ft w₃ gt mt e : Str} (h₀ : Blank w₀)
      (hs : StartText a st (w₁ ++ (q ++ (w₂ ++ (ft ++ (w₃ ++ (gt ++ (mt ++ (e ++ rest)))))))))
      (h₁ : Blank w₁) (hq : Question rel q) (h₂ : Blank w₂) (hf : FunctionText f ft) (h₃ : Blank w₃) (hg : FromText b g gt)
      (hm : LateModule f.module m mt) (he : EndText rest e) :
      FrameText rest (withFrom (frameOf a rel { f with module := m }) b g)
        (w₀ ++ (st ++ (w₁ ++ (q ++ (w₂ ++ (ft ++ (w₃ ++ (gt ++ (mt ++ e)))))))))
  | paren {a b : Nat} {f g : Function} {rel : Bool} {m : Option Str} {w₀ st w₁ q w₂ ft w₃ gt mt w₄ e : Str} (h₀ : Blank w₀)
      (hs : StartText a st (w₁ ++ (q ++ (w₂ ++ (ft ++ (w₃ ++ (gt ++ (mt ++ (c!")" ++ (w₄ ++ (e ++ rest)))))))))))
      (h₁ : Blank w₁) (hq : Question rel q) (h₂ : Blank w₂) (hf : FunctionText f ft) (h₃ : Blank w₃) (hg : FromText b g gt)
      (hm : LateModule f.module m mt) (h₄ : Blank w₄) (he : EndText rest e) :
      FrameText rest (withFrom (frameOf a rel { f with module := m }) b g)
        (w₀ ++ (c!"(" ++ (st ++ (w₁ ++ (q ++ (w₂ ++ (ft ++ (w₃ ++ (gt ++ (mt ++ (c!")" ++ (w₄ ++ e))))))))))))
  | address {a : Nat} {w₀ p ds e : Str} (h₀ : Blank w₀) (hp : p = [] ∨ p = c!"(") (ha : HexText a ds) (he : EndText rest e) :
      FrameText rest { address := a } (w₀ ++ (p ++ (c!"0x" ++ (ds ++ e))))

/-! ## The parsers read these texts -/

theorem skipBlanks_yields (s : Str) : Yields (skipBlanks s) fun t => ∃ w, s = w ++ t ∧ Blank w := by
  obtain ⟨pre, rest, h1, h2, -, h3, -⟩ := C27_span s c!" \t"
  refine ⟨rest, ?_, pre, h1, h2⟩
  rw [skipBlanks, h3, Out.bind_ok]

theorem span_yields (s set : Str) : Yields (skipCharSpan s set) fun r => ∃ w, s = w ++ r.2 ∧ w.length = r.1 ∧ ∀ c ∈ w, c ∈ set := by
  obtain ⟨pre, rest, h1, h2, -, h3, -⟩ := C27_span s set
  exact ⟨_, h3, pre, h1, rfl, h2⟩

theorem cspan_yields (s set : Str) : Yields (skipCharCspan s set) fun r => ∃ w, s = w ++ r.2 ∧ w.length = r.1 ∧ ∀ c ∈ w, c ∉ set := by
  obtain ⟨pre, rest, h1, h2, -, h3, -⟩ := C27_cspan s set
  exact ⟨_, h3, pre, h1, rfl, h2⟩

theorem parseCspan_yields (s set : Str) : Yields (parseCharCspan s set) fun r =>
    (∃ n, r.1 = some n ∧ s = n ++ r.2 ∧ n ≠ [] ∧ ∀ c ∈ n, c ∉ set) ∨ (r.1 = none ∧ r.2 = s) := by
  obtain ⟨pre, rest, h1, h2, -, -, h3⟩ := C27_cspan s set
  refine ⟨_, h3, ?_⟩
  by_cases h : pre = []
  · subst h
    exact .inr ⟨by rw [if_pos rfl], h1.symm⟩
  · exact .inl ⟨pre, by rw [if_neg h], h1, h, h2⟩

theorem char_yields (s : Str) {c : Char} (hc : c ≠ '\x00') : Yields (skipChar s c) fun r =>
    (r.1 = true ∧ s = c :: r.2) ∨ (r.1 = false ∧ r.2 = s) := by
  by_cases h : ∃ t, s = c :: t
  · obtain ⟨t, rfl⟩ := h
    exact ⟨_, skipChar_cons hc t, .inl ⟨rfl, rfl⟩⟩
  · exact ⟨_, (C27_char s c hc).2 h, .inr ⟨rfl, rfl⟩⟩

theorem hex_yields (s : Str) : Yields (parseHexUint64 s) fun r =>
    (r.1 ≠ 0 ∧ ∃ n ds, r.2.1 = some n ∧ s = ds ++ r.2.2 ∧ HexText n ds) ∨ (r = (0, none, s)) := by
  refine ⟨_, C26_hex s, ?_⟩
  dsimp only
  by_cases h : s.takeWhile IsHex ≠ [] ∧ hexValue (s.takeWhile IsHex) < 2 ^ 64
  · rw [if_pos h]
    refine .inl ⟨fun h0 => h.1 (List.length_eq_zero_iff.1 h0), _, s.takeWhile IsHex, rfl, ?_, h.1, fun c hc => List.mem_takeWhile_imp hc, rfl, h.2⟩
    dsimp only
    exact (List.prefix_iff_eq_append.1 (List.takeWhile_prefix _)).symm
  · rw [if_neg h]; exact .inr rfl

theorem hex0x_yields (s : Str) : Yields (parseHex0xUint64 s) fun r =>
    (r.1 ≠ 0 ∧ ∃ n ds, r.2.1 = some n ∧ s = c!"0x" ++ (ds ++ r.2.2) ∧ HexText n ds) ∨ (r = (0, none, s)) := by
  refine ⟨_, C26_hex0x s, ?_⟩
  split
  · rename_i t
    dsimp only
    by_cases h : t.takeWhile IsHex ≠ [] ∧ hexValue (t.takeWhile IsHex) < 2 ^ 64
    · rw [if_pos h]
      refine .inl ⟨by simp, _, t.takeWhile IsHex, rfl, ?_, h.1, fun c hc => List.mem_takeWhile_imp hc, rfl, h.2⟩
      dsimp only
      exact congrArg (fun u => '0' :: 'x' :: u) (List.prefix_iff_eq_append.1 (List.takeWhile_prefix _)).symm
    · rw [if_neg h]; exact .inr rfl
  · exact .inr rfl

theorem closeIf_yields (b : Bool) {c : Char} (hc : c ≠ '\x00') (s : Str) : Yields (closeIf b c s) fun r =>
    r.1 = true → s = (if b then [c] else []) ++ r.2 := by
  unfold closeIf
  cases b
  · exact .ok fun _ => rfl
  · refine (char_yields s hc).mono fun r hr h => ?_
    rcases hr with ⟨-, h2⟩ | ⟨h1, -⟩
    · exact h2
    · rw [h1] at h; exact Bool.noConfusion h

theorem address_yields (s : Str) : Yields (parseAddress s) fun r =>
    (∀ t, r.2 = some t → ∃ u, s = u ++ t ∧ AddressText r.1 u) ∧
    (r.2 = none → r.1 = 0 ∨ ∃ ds t, HexText r.1 ds ∧ (s = c!"[" ++ ds ++ t ∨ s = c!"[<" ++ ds ++ t)) := by
  unfold parseAddress
  refine (char_yields s (by decide)).bind fun a ha => .ite (fun _ => .ok ⟨by rintro _ ⟨⟩, fun _ => .inl rfl⟩) fun h => ?_
  rcases ha with ⟨-, ha⟩ | ⟨ha, -⟩
  swap
  · exact absurd ha h
  refine (char_yields a.2 (by decide)).bind fun g hg => (hex_yields g.2).bind fun n hn =>
    .ite (fun _ => .ok ⟨by rintro _ ⟨⟩, fun _ => .inl rfl⟩) fun hn0 => ?_
  rcases hn with ⟨-, v, ds, hv, hn, hh⟩ | hn
  swap
  · rw [hn] at hn0; exact absurd rfl hn0
  rw [hv, Option.getD_some]
  have hbroken : ∃ t, s = c!"[" ++ ds ++ t ∨ s = c!"[<" ++ ds ++ t := by
    rcases hg with ⟨-, hg⟩ | ⟨-, hg⟩
    · exact ⟨n.2.2, .inr (by rw [ha, hg, hn]; simp)⟩
    · exact ⟨n.2.2, .inl (by rw [ha, ← hg, hn]; simp)⟩
  obtain ⟨t, ht⟩ := hbroken
  refine (closeIf_yields g.1 (by decide) _).bind fun c hc =>
    .ite (fun _ => .ok ⟨by rintro _ ⟨⟩, fun _ => .inr ⟨ds, t, hh, ht⟩⟩) fun hct => ?_
  refine (char_yields c.2 (by decide)).bind fun b hb => .ok ⟨?_, fun _ => .inr ⟨ds, t, hh, ht⟩⟩
  have hc := hc (by simpa using hct)
  rcases hb with ⟨hb1, hb⟩ | ⟨hb, -⟩
  swap
  · rw [hb]; rintro _ ⟨⟩
  rw [hb1]
  rintro _ ⟨⟩
  rcases hg with ⟨hg1, hg⟩ | ⟨hg1, hg⟩
  · rw [hg1] at hc
    exact ⟨_, by rw [ha, hg, hn, hc, hb]; simp, .angle hh⟩
  · rw [hg1] at hc
    exact ⟨_, by rw [ha, ← hg, hn, hc, hb]; simp, .square hh⟩

theorem moduleName_yields (s : Str) : Yields (parseModuleName s) fun r =>
    ∀ m t, r = some (m, t) → s = c!"[" ++ m ++ c!"]" ++ t ∧ ModuleName m := by
  unfold parseModuleName
  refine (char_yields s (by decide)).bind fun a ha => .ite (fun _ => .ok (by rintro _ _ ⟨⟩)) fun h => ?_
  rcases ha with ⟨-, ha⟩ | ⟨ha, -⟩
  swap
  · exact absurd ha h
  refine (parseCspan_yields a.2 _).bind fun n hn => ?_
  rcases hn with ⟨m, hm, hn, h1, h2⟩ | ⟨hm, -⟩
  swap
  · rw [hm]; exact .ok (by rintro _ _ ⟨⟩)
  rw [hm]
  refine (char_yields n.2 (by decide)).bind fun b hb => .ok ?_
  rcases hb with ⟨hb1, hb⟩ | ⟨hb, -⟩
  swap
  · rw [hb]; rintro _ _ ⟨⟩
  rw [hb1]
  rintro _ _ ⟨⟩
  exact ⟨by rw [ha, hn, hb]; simp, h1, h2⟩

theorem optModule_yields (s : Str) : Yields (optModule s) fun r => ∃ u, s = u ++ r.2 ∧ ModuleText r.1 u := by
  unfold optModule
  refine (moduleName_yields s).bind fun r hr => ?_
  split
  · exact .ok ⟨[], rfl, .none⟩
  · rename_i m t
    obtain ⟨h1, h2⟩ := hr m t rfl
    exact .ok ⟨_, h1, .some h2⟩

theorem optHex_yields (s : Str) : Yields (parseHex0xUint64 s) fun r => ∃ u, s = u ++ r.2.2 ∧ OptHex (r.2.1.getD 0) u := by
  refine (hex0x_yields s).mono fun r hr => ?_
  rcases hr with ⟨-, n, ds, h1, h2, h3⟩ | rfl
  · refine ⟨_, (by rw [h2, List.append_assoc] : s = (c!"0x" ++ ds) ++ r.2.2), ?_⟩
    rw [h1]; exact .hex h3
  · exact ⟨[], rfl, .none⟩

theorem functionTail_yields (n : Str) (b : Bool) (s : Str) (hn : FunctionName n) : Yields (functionTail n b s) fun r =>
    ∀ f t, r = some (f, t) → ∃ u, n ++ s = u ++ ((if b then c!")" else []) ++ t) ∧ FunctionBody f u := by
  unfold functionTail
  refine (char_yields s (by decide)).bind fun p hp => .ite (fun _ => .ok (by rintro _ _ ⟨⟩)) fun h => ?_
  rcases hp with ⟨-, hp⟩ | ⟨hp, -⟩
  swap
  · exact absurd hp h
  refine (optHex_yields p.2).bind fun o ⟨ot, ho, hot⟩ => (char_yields o.2.2 (by decide)).bind fun sl hsl =>
    .ite (fun _ => .ok (by rintro _ _ ⟨⟩)) fun h => ?_
  rcases hsl with ⟨-, hsl⟩ | ⟨hsl, -⟩
  swap
  · exact absurd hsl h
  refine (optHex_yields sl.2).bind fun l ⟨lt, hl, hlt⟩ => (skipBlanks_yields l.2.2).bind fun t1 ⟨w1, hw1, hb1⟩ =>
    (optModule_yields t1).bind fun m ⟨mt, hm, hmt⟩ => (skipBlanks_yields m.2).bind fun t2 ⟨w2, hw2, hb2⟩ =>
    (closeIf_yields b (by decide) t2).bind fun c hc => .ok ?_
  intro f t hft
  cases hc1 : c.1 with
  | false => rw [hc1] at hft; cases hft
  | true =>
    rw [hc1] at hft
    cases hft
    refine ⟨_, ?_, .named hn hot hlt hb1 hmt hb2⟩
    rw [hp, ho, hsl, hl, hw1, hm, hw2, hc hc1]
    simp

theorem function_yields (s : Str) : Yields (parseFunction s) fun r => ∀ f t, r = some (f, t) → ∃ u, s = u ++ t ∧ FunctionText f u := by
  unfold parseFunction
  refine (char_yields s (by decide)).bind fun p hp => (hex0x_yields p.2).bind fun x hx => .ite (fun h => ?_) fun h => ?_
  · rcases hx with ⟨-, n, ds, h1, h2, h3⟩ | rfl
    swap
    · exact absurd rfl h
    refine (closeIf_yields p.1 (by decide) _).bind fun c hc => .ok ?_
    intro f t hft
    cases hc1 : c.1 with
    | false => rw [hc1] at hft; cases hft
    | true =>
      rw [hc1] at hft
      cases hft
      have hc := hc hc1
      rcases hp with ⟨hp1, hp⟩ | ⟨hp1, hp⟩
      · rw [hp1] at hc
        exact ⟨_, by rw [hp, h2, hc]; simp, .paren (.address h3)⟩
      · rw [hp1] at hc
        exact ⟨_, by rw [← hp, h2, hc]; simp, .plain (.address h3)⟩
  · refine (parseCspan_yields p.2 _).bind fun n hn => ?_
    rcases hn with ⟨m, hm, hn, h1, h2⟩ | ⟨hm, -⟩
    swap
    · rw [hm]; exact .ok (by rintro _ _ ⟨⟩)
    rw [hm]
    refine (functionTail_yields m p.1 n.2 ⟨h1, h2⟩).mono fun r hr f t hft => ?_
    obtain ⟨u, hu, hfu⟩ := hr f t hft
    rw [← hn] at hu
    rcases hp with ⟨hp1, hp⟩ | ⟨hp1, hp⟩
    · rw [hp1] at hu
      exact ⟨_, by rw [hp, hu]; simp, .paren hfu⟩
    · rw [hp1] at hu
      exact ⟨_, by rw [← hp, hu]; simp, .plain hfu⟩

theorem lineEnd_yields (s : Str) : Yields (lineEnd s) fun r => ∀ t, r = some t → ∃ e, s = e ++ t ∧ EndText t e := by
  unfold lineEnd
  refine .ite (fun h => .ok ?_) fun h => (char_yields s (by decide)).bind fun b hb => .ok ?_
  · rintro _ ⟨⟩
    exact ⟨[], rfl, .eof h⟩
  · rcases hb with ⟨hb1, hb⟩ | ⟨hb1, -⟩
    · rw [hb1]; rintro _ ⟨⟩
      exact ⟨_, hb, .newline⟩
    · rw [hb1]; rintro _ ⟨⟩

/-- The result of a parser of frames stands at the beginning of its text. -/
def Sound (s : Str) (r : Option (KoopsFrame × Str)) : Prop := ∀ k t, r = some (k, t) → ∃ u, s = u ++ t ∧ FrameText t k u

theorem Sound.none (s : Str) : Sound s none := by rintro _ _ ⟨⟩

theorem ppc_yields (s : Str) : Yields (parsePpc s) (Sound s) := by
  unfold parsePpc
  refine (skipBlanks_yields s).bind fun s0 ⟨w0, hw0, hb0⟩ => (address_yields s0).bind fun sp ⟨hsp, _⟩ => ?_
  split
  · exact .ok (Sound.none _)
  rename_i s1 hs1
  obtain ⟨spt, h1, hspt⟩ := hsp s1 hs1
  refine (skipBlanks_yields s1).bind fun s2 ⟨w1, hw1, hb1⟩ => (address_yields s2).bind fun a ⟨ha, _⟩ => ?_
  split
  · exact .ok (Sound.none _)
  rename_i s3 hs3
  obtain ⟨at_, h3, hat⟩ := ha s3 hs3
  refine (skipBlanks_yields s3).bind fun s4 ⟨w2, hw2, hb2⟩ => (char_yields s4 (by decide)).bind fun d hd =>
    (function_yields d.2).bind fun f hf => ?_
  split
  · exact .ok (Sound.none _)
  rename_i f s5
  obtain ⟨ft, h5, hft⟩ := hf f s5 rfl
  refine (skipBlanks_yields s5).bind fun s6 ⟨w3, hw3, hb3⟩ => (skipBlanks_yields _).bind fun s7 ⟨w4, hw4, hb4⟩ =>
    (lineEnd_yields s7).bind fun e he => .ok ?_
  intro k t hkt
  cases e with
  | none => cases hkt
  | some t' =>
    cases hkt
    obtain ⟨et, he, het⟩ := he t rfl
    have hdt : ∃ dt, s4 = dt ++ d.2 ∧ Dot dt := by
      rcases hd with ⟨-, hd⟩ | ⟨-, hd⟩
      · exact ⟨_, hd, .dot⟩
      · exact ⟨[], hd.symm, .none⟩
    obtain ⟨dt, hd, hdt⟩ := hdt
    have hut : ∃ ut, s6 = ut ++ (skipString s6 c!"(unreliable)").2 ∧ Unreliable ((skipString s6 c!"(unreliable)").1 == 0) ut := by
      rcases skipString_cases s6 c!"(unreliable)" with ⟨b, hb, h⟩ | h <;> rw [h]
      · exact ⟨_, hb, .unreliable⟩
      · exact ⟨[], rfl, .reliable⟩
    obtain ⟨ut, hu, hut⟩ := hut
    exact ⟨_, by rw [hw0, h1, hw1, h3, hw2, hd, h5, hw3, hu, hw4, he]; simp only [List.append_assoc],
      .ppc hb0 hspt hb1 hat hb2 hdt hft hb3 hut hb4 het⟩

theorem question_of {s : Str} {q : Bool × Str} (h : (q.1 = true ∧ s = '?' :: q.2) ∨ (q.1 = false ∧ q.2 = s)) :
    ∃ t, s = t ++ q.2 ∧ Question (!q.1) t := by
  rcases h with ⟨h1, h⟩ | ⟨h1, h⟩ <;> rw [h1]
  · exact ⟨_, h, .unreliable⟩
  · exact ⟨[], h.symm, .reliable⟩

theorem arm_yields (s : Str) : Yields (parseArm s) (Sound s) := by
  unfold parseArm
  refine (skipBlanks_yields s).bind fun s0 ⟨w0, hw0, hb0⟩ => (address_yields s0).bind fun a ⟨ha, _⟩ => ?_
  split
  · exact .ok (Sound.none _)
  rename_i s1 hs1
  obtain ⟨at_, h1, hat⟩ := ha s1 hs1
  refine (skipBlanks_yields s1).bind fun s2 ⟨w1, hw1, hb1⟩ => (char_yields s2 (by decide)).bind fun q hq =>
    (skipBlanks_yields q.2).bind fun s3 ⟨w2, hw2, hb2⟩ => (char_yields s3 (by decide)).bind fun p hp =>
    .ite (fun _ => .ok (Sound.none _)) fun hp1 => (parseCspan_yields p.2 _).bind fun n hn => ?_
  obtain ⟨qt, hq, hqt⟩ := question_of hq
  rcases hn with ⟨m, hm, hn, hn1, hn2⟩ | ⟨hm, -⟩
  swap
  · rw [hm]; exact .ok (Sound.none _)
  rw [hm]
  rcases hp with ⟨-, hp⟩ | ⟨hp, -⟩
  swap
  · exact absurd hp hp1
  refine (char_yields n.2 (by decide)).bind fun c hc => .ite (fun _ => .ok (Sound.none _)) fun hc1 => ?_
  rcases hc with ⟨-, hc⟩ | ⟨hc, -⟩
  swap
  · exact absurd hc hc1
  unfold armFrom
  refine (skipBlanks_yields c.2).bind fun s4 ⟨w3, hw3, hb3⟩ => .ite (fun _ => .ok (Sound.none _)) fun hfr => ?_
  rcases skipString_cases s4 c!"from" with ⟨s5, h5, hs5⟩ | hs5
  swap
  · rw [hs5] at hfr; exact absurd rfl hfr
  rw [hs5]
  refine (skipBlanks_yields s5).bind fun s6 ⟨w4, hw4, hb4⟩ => (address_yields s6).bind fun b ⟨hb, _⟩ => ?_
  split
  · exact .ok (Sound.none _)
  rename_i s7 hs7
  obtain ⟨bt, h7, hbt⟩ := hb s7 hs7
  refine (skipBlanks_yields s7).bind fun s8 ⟨w5, hw5, hb5⟩ => (function_yields s8).bind fun f hf => .ok ?_
  intro k t hkt
  cases f with
  | none => cases hkt
  | some r =>
    obtain ⟨f, t'⟩ := r
    cases hkt
    obtain ⟨ft, hf, hft⟩ := hf f t' rfl
    exact ⟨_, by rw [hw0, h1, hw1, hq, hw2, hp, hn, hc, hw3, h5, hw4, h7, hw5, hf]; simp,
      .arm hb0 hat hb1 hqt hb2 ⟨hn1, hn2⟩ hb3 hb4 hbt hb5 hft⟩

theorem generalFrom_yields (s : Str) : Yields (generalFrom s) fun r => ∀ b g t, r = some (b, g, t) → ∃ u, s = u ++ t ∧ FromText b g u := by
  unfold generalFrom
  refine .ite (fun _ => .ok ?_) fun hfr => ?_
  · rintro _ _ _ ⟨⟩; exact ⟨[], rfl, .none⟩
  rcases skipString_cases s c!"from" with ⟨s5, h5, hs5⟩ | hs5
  swap
  · rw [hs5] at hfr; exact absurd rfl hfr
  rw [hs5]
  refine (skipBlanks_yields s5).bind fun s6 ⟨w4, hw4, hb4⟩ => (address_yields s6).bind fun b ⟨hb, _⟩ => ?_
  split
  · exact .ok (by rintro _ _ _ ⟨⟩)
  rename_i s7 hs7
  obtain ⟨bt, h7, hbt⟩ := hb s7 hs7
  refine (skipBlanks_yields s7).bind fun s8 ⟨w5, hw5, hb5⟩ => (function_yields s8).bind fun f hf => ?_
  split
  · exact .ok (by rintro _ _ _ ⟨⟩)
  rename_i f s9
  obtain ⟨ft, hf, hft⟩ := hf f s9 rfl
  refine (skipBlanks_yields s9).bind fun t ⟨w6, hw6, hb6⟩ => .ok ?_
  rintro _ _ _ ⟨⟩
  exact ⟨_, by rw [h5, hw4, h7, hw5, hf, hw6]; simp, .some hb4 hbt hb5 hft hb6⟩

theorem lateModule_yields (m : Option Str) (s : Str) : Yields (lateModule m s) fun r => ∃ u, s = u ++ r.2 ∧ LateModule m r.1 u := by
  unfold lateModule
  refine .ite (fun h => .ok ?_) fun h => (optModule_yields s).bind fun r ⟨u, hu, hru⟩ => ?_
  · obtain ⟨x, rfl⟩ := Option.isSome_iff_exists.1 h
    exact ⟨[], rfl, .before⟩
  have hm : m = none := by simpa using h
  subst hm
  cases hr : r.1 with
  | none =>
    rw [hr] at hru
    cases hru
    rw [if_neg (by simp)]
    exact .ok ⟨[], hu, by rw [hr]; exact .none⟩
  | some x =>
    rw [hr] at hru
    cases hru with | some hx =>
    rw [if_pos (by rfl)]
    refine (skipBlanks_yields r.2).bind fun t ⟨w, hw, hb⟩ => .ok ⟨_, by rw [hu, hw]; simp, .some hx hb⟩

theorem generalEnd_yields (p : Bool) (s : Str) : Yields (generalEnd p s) fun r => ∀ t, r = some t →
    ∃ w e, s = (if p then c!")" ++ w else []) ++ (e ++ t) ∧ Blank w ∧ EndText t e := by
  unfold generalEnd
  cases p
  · rw [if_neg (by decide)]
    refine (lineEnd_yields s).mono fun r hr t ht => ?_
    obtain ⟨e, h1, h2⟩ := hr t ht
    exact ⟨[], e, h1, by simp [Blank], h2⟩
  · rw [if_pos rfl]
    refine (char_yields s (by decide)).bind fun c hc => .ite (fun _ => .ok (by rintro _ ⟨⟩)) fun hc1 => ?_
    rcases hc with ⟨-, hc⟩ | ⟨hc, -⟩
    swap
    · exact absurd hc hc1
    refine (skipBlanks_yields c.2).bind fun s1 ⟨w, hw, hb⟩ => (lineEnd_yields s1).mono fun r hr t ht => ?_
    obtain ⟨e, h1, h2⟩ := hr t ht
    exact ⟨w, e, by rw [hc, hw, h1]; simp, hb, h2⟩

theorem generalBody_yields (p : Bool) (a : Nat) {w₀ st s s' : Str} (h₀ : Blank w₀) (hs : StartText a st s)
    (hs' : s' = w₀ ++ ((if p then c!"(" else []) ++ (st ++ s))) : Yields (generalBody p a s) (Sound s') := by
  unfold generalBody
  refine (skipBlanks_yields s).bind fun s1 ⟨w1, hw1, hb1⟩ => (char_yields s1 (by decide)).bind fun q hq =>
    (skipBlanks_yields q.2).bind fun s2 ⟨w2, hw2, hb2⟩ => (function_yields s2).bind fun f hf => ?_
  obtain ⟨qt, hq, hqt⟩ := question_of hq
  split
  · exact .ok (Sound.none _)
  rename_i f s3
  obtain ⟨ft, h3, hft⟩ := hf f s3 rfl
  refine (skipBlanks_yields s3).bind fun s4 ⟨w3, hw3, hb3⟩ => (generalFrom_yields s4).bind fun r hr => ?_
  split
  · exact .ok (Sound.none _)
  rename_i b g s5
  obtain ⟨gt, h5, hgt⟩ := hr b g s5 rfl
  refine (lateModule_yields f.module s5).bind fun m ⟨mt, hm, hmt⟩ => (generalEnd_yields p m.2).bind fun e he => .ok ?_
  intro k t hkt
  cases e with
  | none => cases hkt
  | some t' =>
    cases hkt
    obtain ⟨w4, et, he, hb4, het⟩ := he t rfl
    cases p
    · rw [if_neg (by decide)] at he hs'
      have e0 : s = w1 ++ (qt ++ (w2 ++ (ft ++ (w3 ++ (gt ++ (mt ++ (et ++ t))))))) := by rw [hw1, hq, hw2, h3, hw3, h5, hm, he]; rfl
      rw [e0] at hs
      exact ⟨_, by rw [hs', e0]; simp only [List.append_assoc, List.nil_append], .plain h₀ hs hb1 hqt hb2 hft hb3 hgt hmt het⟩
    · rw [if_pos rfl] at he hs'
      have e0 : s = w1 ++ (qt ++ (w2 ++ (ft ++ (w3 ++ (gt ++ (mt ++ (c!")" ++ (w4 ++ (et ++ t))))))))) := by
        rw [hw1, hq, hw2, h3, hw3, h5, hm, he]; simp only [List.append_assoc]
      rw [e0] at hs
      exact ⟨_, by rw [hs', e0]; simp only [List.append_assoc], .paren h₀ hs hb1 hqt hb2 hft hb3 hgt hmt hb4 het⟩

theorem general_yields (s : Str) : Yields (parseGeneral s) (Sound s) := by
  unfold parseGeneral
  refine (skipBlanks_yields s).bind fun s0 ⟨w0, hw0, hb0⟩ => (char_yields s0 (by decide)).bind fun p hp =>
    (address_yields p.2).bind fun a ⟨ha1, ha2⟩ => ?_
  have hp' : s0 = (if p.1 then c!"(" else []) ++ p.2 := by
    rcases hp with ⟨hp1, hp⟩ | ⟨hp1, hp⟩ <;> rw [hp1]
    · exact hp
    · exact hp.symm
  split
  · rename_i s1 hs1
    obtain ⟨at_, h1, hat⟩ := ha1 s1 hs1
    exact generalBody_yields p.1 a.1 hb0 (.address hat) (by rw [hw0, hp', h1])
  · rename_i hs1
    refine (hex0x_yields p.2).bind fun x hx => .ite (fun h => ?_) fun h => ?_
    · rcases hx with ⟨-, n, ds, h1, h2, h3⟩ | rfl
      swap
      · exact absurd rfl h
      refine (lineEnd_yields x.2.2).bind fun e he => .ok ?_
      intro k t hkt
      cases e with
      | none => cases hkt
      | some t' =>
        cases hkt
        obtain ⟨et, he, het⟩ := he t rfl
        rw [h1, Option.getD_some]
        refine ⟨_, ?_, .address (p := if p.1 then c!"(" else []) hb0 ?_ h3 het⟩
        · rw [hw0, hp', h2, he]; simp only [List.append_assoc]
        · cases p.1
          · exact .inl rfl
          · exact .inr rfl
    · have hst : StartText a.1 [] p.2 := by
        rcases ha2 hs1 with h0 | ⟨ds, t, hh, ht | ht⟩
        · rw [h0]; exact .none
        · rw [ht]; exact .broken hh
        · rw [ht]; exact .brokenAngle hh
      exact generalBody_yields p.1 a.1 hb0 hst (by rw [hw0, hp']; rfl)

theorem frame_yields (s : Str) : Yields (parseFrame s) (Sound s) := by
  unfold parseFrame
  refine (ppc_yields s).bind fun r hr => ?_
  split
  · exact .ok hr
  refine (arm_yields s).bind fun r hr => ?_
  split
  · exact .ok hr
  · exact general_yields s

/-- C56 for the frames of kernel oopses: on every text nothing undefined happens. -/
theorem C56_koops_frame (s : Str) : Fine (parseFrame s) := (frame_yields s).fine

/-- C74: what is read of a frame stands in the text, in one of the formats of kernel frames: addresses, function name, offset,
length, module and caller are those of the text, and the frame is reliable unless the text marks it. -/
theorem C74_sound {s t : Str} {k : KoopsFrame} (h : parseFrame s = .ok (some (k, t))) : ∃ u, s = u ++ t ∧ FrameText t k u :=
  (frame_yields s).post _ h k t rfl

end Satyr.Text.Koops
