import Verif.Text.Python
import Verif.CStr.Exact
/-!
# Exactly which texts are read as Python frames and tracebacks (C52)
-/
namespace Satyr.Text.Python
open Satyr.CStr Satyr.Frames

/-! ## Specification -/

/-- A name as it is printed: special names are in angle brackets. -/
def IsName (text : Str) (special : Bool) (name : Str) : Prop :=
  (special = true ∧ text = '<' :: name ++ ['>']) ∨ (special = false ∧ name = text ∧ ¬ ∃ t, text = '<' :: t ++ ['>'])

/-- A line of marks below a source line. -/
def Marks (m : Str) : Prop := ∀ c ∈ m, c ∈ c!" ^~"

/-- The end of a line, or of the text. -/
def AtEnd (s : Str) : Prop := s = [] ∨ peek s = '\n'

/-- The function at the end of the line; the rest begins with the end of the line. Without function (as for syntax errors) the
name `<syntax>` is used. -/
inductive FunctionText : Str → Bool → Str → Str → Prop
  | named (text rest : Str) (special : Bool) (name : Str) : text ≠ [] → '\n' ∉ text → AtEnd rest → IsName text special name →
      FunctionText (c!", in " ++ text ++ rest) special name rest
  | missing (rest : Str) : FunctionText ('\n' :: rest) true c!"syntax" ('\n' :: rest)

/-- The end of the line. -/
def LineEnd (s t : Str) : Prop := s = '\n' :: t ∨ s = [] ∧ t = []

/-- The optional source line. -/
inductive SourceText : Str → Option Str → Str → Prop
  | missing (rest : Str) : (¬ ∃ t, rest = c!"    " ++ t) → SourceText rest none rest
  | line (src s rest : Str) : src ≠ [] → '\n' ∉ src → LineEnd s rest → SourceText (c!"    " ++ src ++ s) (some src) rest
  | blank (rest : Str) : AtEnd rest → SourceText (c!"    " ++ rest) none rest

/-- `s` begins with the frame `f` and continues with `t`. -/
def FrameText (s : Str) (f : PythonFrame) (t : Str) : Prop :=
  ∃ marks file special fileName digits line s1 special' functionName s2 s3 source,
    (s = c!"  File \"" ++ file ++ c!"\", line " ++ digits ++ s1 ∨
      Marks marks ∧ s = marks ++ c!"\n" ++ (c!"  File \"" ++ file ++ c!"\", line " ++ digits ++ s1)) ∧
    file ≠ [] ∧ '"' ∉ file ∧ IsName file special fileName ∧ Number digits line ∧
    FunctionText s1 special' functionName s2 ∧ LineEnd s2 s3 ∧ SourceText s3 source t ∧
    f = ⟨special, some (anonymizePath fileName), line, special', some functionName, source⟩

/-- The text `s` after a line of marks, if it begins with one. -/
def AfterMarks (s t : Str) : Prop :=
  (∃ m, Marks m ∧ s = m ++ c!"\n" ++ t) ∨ (t = s ∧ (∃ c ∈ s, c ∉ c!" ^~") ∧ ¬ ∃ m r, Marks m ∧ s = m ++ c!"\n" ++ r)

/-- `s` begins with the frames and continues with `t`, which is no frame (a line of marks may be left out). -/
inductive Frames : Str → List PythonFrame → Str → Prop
  | done (s t : Str) : AfterMarks s t → (¬ ∃ f u, FrameText s f u) → Frames s [] t
  | more (s u t : Str) (f : PythonFrame) (fs : List PythonFrame) : FrameText s f u → Frames u fs t → Frames s (f :: fs) t

/-- The frames begin at `s`: after the first header, or, if there is none, at the first file after the words `invalid syntax (`. -/
def Begins (inp s : Str) : Prop :=
  (∃ pre, FirstAt header inp pre s) ∨
  ((¬ ∃ a b, inp = a ++ header ++ b) ∧ ∃ pre mid pre' rest, FirstAt c!"invalid syntax (" inp pre mid ∧
    FirstAt c!"  File \"" (c!"invalid syntax (" ++ mid) pre' rest ∧ s = c!"  File \"" ++ rest)

/-! ## Proofs -/

theorem stripSpecial_iff {text name : Str} {special : Bool} : stripSpecial text = (special, name) ↔ IsName text special name := by
  unfold stripSpecial IsName
  split
  · next h =>
    obtain ⟨-, h1, h2⟩ := h
    obtain ⟨l, rfl⟩ := List.getLast?_eq_some_iff.1 h2
    cases l with
    | nil => exact absurd h1 (by decide)
    | cons c l =>
      have : c = '<' := h1
      subst this
      rw [List.dropLast_concat]
      simp only [List.tail_cons, Prod.mk.injEq]
      constructor
      · rintro ⟨rfl, rfl⟩; exact .inl ⟨rfl, rfl⟩
      · rintro (⟨rfl, h⟩ | ⟨-, -, h⟩)
        · simp only [List.cons_append, List.cons.injEq, List.append_cancel_right_eq, true_and] at h
          exact ⟨rfl, h⟩
        · exact absurd ⟨l, rfl⟩ h
  · next h =>
    have hno : ¬ ∃ t, text = '<' :: t ++ ['>'] := by
      rintro ⟨t, rfl⟩
      exact h ⟨by simp, rfl, by rw [List.getLast?_concat]⟩
    simp only [Prod.mk.injEq]
    constructor
    · rintro ⟨rfl, rfl⟩; exact .inr ⟨rfl, rfl, hno⟩
    · rintro (⟨-, h⟩ | ⟨rfl, rfl, -⟩)
      · exact absurd ⟨name, h⟩ hno
      · exact ⟨rfl, rfl⟩

theorem atEnd_iff {s : Str} : AtEnd s ↔ s = [] ∨ peek s ∈ c!"\n" := by unfold AtEnd; simp

theorem functionName_iff {s : Str} {special : Bool} {name t : Str} :
    functionName s = .ok (some ((special, name), t)) ↔ FunctionText s special name t := by
  unfold functionName
  constructor
  · intro h
    by_cases hb : ∃ u, s = c!", in " ++ u
    · obtain ⟨u, rfl⟩ := hb
      rw [skipString_append] at h
      dsimp only at h
      rw [if_neg (by decide)] at h
      obtain ⟨⟨o, r⟩, hr⟩ := parseCharCspan_fine u c!"\n"
      rw [hr, Out.bind_ok] at h
      cases o with
      | none => cases h
      | some x =>
        dsimp only at h
        injection h with h
        simp only [Option.some.injEq, Prod.mk.injEq] at h
        obtain ⟨h1, rfl⟩ := h
        obtain ⟨rfl, h2, h3, h4⟩ := parseCspan_iff.1 hr
        have := FunctionText.named x r special name h2 (notin h3) (atEnd_iff.2 h4) (stripSpecial_iff.1 h1)
        simpa using this
    · rw [skipString_fail hb] at h
      dsimp only at h
      rw [if_pos rfl] at h
      split at h
      · cases h
      · next hp =>
        rw [ne_eq, not_not] at hp
        injection h with h
        simp only [Option.some.injEq, Prod.mk.injEq] at h
        obtain ⟨⟨rfl, rfl⟩, rfl⟩ := h
        cases s with
        | nil => exact absurd hp (by decide)
        | cons c s =>
          have : c = '\n' := hp
          subst this
          exact .missing s
  · rintro (⟨text, rest, special, name, h1, h2, h3, h4⟩ | ⟨rest⟩)
    · rw [List.append_assoc, skipString_append]
      dsimp only
      rw [if_neg (by decide), parseCspan_iff.2 ⟨rfl, h1, notin' h2, atEnd_iff.1 h3⟩, Out.bind_ok]
      dsimp only
      rw [stripSpecial_iff.2 h4]
    · rw [skipString_fail (by rintro ⟨t, h⟩; simp at h)]
      rfl

theorem skipNl_iff {s t : Str} : (∃ b, skipChar s '\n' = .ok (b, t)) ↔ LineEnd s t ∨ (t = s ∧ ¬ AtEnd s) := by
  by_cases hp : peek s = '\n'
  · cases s with
    | nil => exact absurd hp (by decide)
    | cons c s =>
      have : c = '\n' := hp
      subst this
      rw [skipChar_cons (by decide)]
      constructor
      · rintro ⟨b, h⟩
        injection h with h
        rw [Prod.mk.injEq] at h
        exact .inl (.inl (by rw [h.2]))
      · rintro ((h | ⟨h, -⟩) | ⟨-, h⟩)
        · simp only [List.cons.injEq, true_and] at h
          exact ⟨true, by rw [h]⟩
        · cases h
        · exact absurd (.inr rfl) h
  · rw [skipChar_not (by decide) hp]
    constructor
    · rintro ⟨b, h⟩
      injection h with h
      rw [Prod.mk.injEq] at h
      obtain ⟨-, rfl⟩ := h
      by_cases he : s = []
      · subst he; exact .inl (.inr ⟨rfl, rfl⟩)
      · exact .inr ⟨rfl, fun h => h.elim he hp⟩
    · rintro ((h | ⟨h1, h2⟩) | ⟨h, -⟩)
      · subst h; exact absurd rfl hp
      · subst h1 h2; exact ⟨_, rfl⟩
      · subst h; exact ⟨_, rfl⟩

/-- At the end of a line. -/
theorem skipNl_end {s t : Str} (hs : AtEnd s) : (∃ b, skipChar s '\n' = .ok (b, t)) ↔ LineEnd s t := by
  rw [skipNl_iff]
  exact ⟨fun h => h.elim id fun h => absurd hs h.2, .inl⟩

theorem sourceLine_iff {s t : Str} {c : Option Str} : sourceLine s = .ok (c, t) ↔ SourceText s c t := by
  unfold sourceLine
  constructor
  · intro h
    by_cases hb : ∃ u, s = c!"    " ++ u
    · obtain ⟨u, rfl⟩ := hb
      rw [skipString_append] at h
      dsimp only at h
      rw [if_pos (show c!"    ".length = 4 from rfl)] at h
      obtain ⟨⟨o, r⟩, hr⟩ := parseCharCspan_fine u c!"\n"
      rw [hr, Out.bind_ok] at h
      cases o with
      | none =>
        dsimp only at h
        rw [if_pos rfl] at h
        injection h with h
        rw [Prod.mk.injEq] at h
        obtain ⟨rfl, rfl⟩ := h
        obtain ⟨rfl, h2⟩ := parseCspan_none.1 hr
        exact .blank r (atEnd_iff.2 h2)
      | some x =>
        dsimp only at h
        rw [if_neg (by simp)] at h
        obtain ⟨⟨b, v⟩, hv⟩ := skipChar_fine r (c := '\n') (by decide)
        rw [hv, Out.bind_ok] at h
        injection h with h
        rw [Prod.mk.injEq] at h
        obtain ⟨rfl, h⟩ := h
        dsimp only at h
        subst h
        obtain ⟨rfl, h2, h3, h4⟩ := parseCspan_iff.1 hr
        have := SourceText.line x r v h2 (notin h3) ((skipNl_end (atEnd_iff.2 h4)).1 ⟨b, hv⟩)
        simpa using this
    · rw [skipString_fail hb] at h
      dsimp only at h
      rw [if_neg (by decide)] at h
      injection h with h
      rw [Prod.mk.injEq] at h
      obtain ⟨rfl, rfl⟩ := h
      exact .missing s hb
  · rintro (⟨_, h⟩ | ⟨src, s, _, h1, h2, h3⟩ | ⟨_, h⟩)
    · rw [skipString_fail h]
      rfl
    · rw [List.append_assoc, skipString_append]
      dsimp only
      have he : AtEnd s := by
        rcases h3 with h3 | ⟨h3, -⟩
        · right; rw [h3]; rfl
        · exact .inl h3
      rw [if_pos (show c!"    ".length = 4 from rfl), parseCspan_iff.2 ⟨rfl, h1, notin' h2, atEnd_iff.1 he⟩, Out.bind_ok]
      dsimp only
      rw [if_neg (by simp)]
      obtain ⟨b, hb⟩ := (skipNl_end he).2 h3
      rw [hb, Out.bind_ok]
    · rw [skipString_append]
      dsimp only
      rw [if_pos (show c!"    ".length = 4 from rfl), parseCspan_none.2 ⟨rfl, atEnd_iff.1 h⟩, Out.bind_ok]
      rfl

theorem FunctionText.atEnd {s name t : Str} {special : Bool} (h : FunctionText s special name t) : AtEnd t := by
  cases h with
  | named text _ _ _ _ _ h => exact h
  | missing => exact .inr rfl

theorem FunctionText.notDigit {s name t : Str} {special : Bool} (h : FunctionText s special name t) : IsDec (peek s) = false := by
  cases h <;> rfl

/-- The frame after the marks. -/
def BodyText (s : Str) (f : PythonFrame) (t : Str) : Prop :=
  ∃ file special fileName digits line s1 special' functionName s2 s3 source,
    s = c!"  File \"" ++ file ++ c!"\", line " ++ digits ++ s1 ∧
    file ≠ [] ∧ '"' ∉ file ∧ IsName file special fileName ∧ Number digits line ∧
    FunctionText s1 special' functionName s2 ∧ LineEnd s2 s3 ∧ SourceText s3 source t ∧
    f = ⟨special, some (anonymizePath fileName), line, special', some functionName, source⟩

theorem frameBody_iff {s t : Str} {f : PythonFrame} : frameBody s = .ok (some (f, t)) ↔ BodyText s f t := by
  unfold frameBody
  constructor
  · intro h
    by_cases hb : ∃ u, s = c!"  File \"" ++ u
    swap
    · rw [skipString_fail hb] at h
      cases h
    obtain ⟨u, rfl⟩ := hb
    rw [skipString_append] at h
    dsimp only at h
    rw [if_neg (by decide)] at h
    obtain ⟨⟨o, r⟩, hr⟩ := parseCharCspan_fine u c!"\""
    rw [hr, Out.bind_ok] at h
    cases o with
    | none => cases h
    | some file =>
      dsimp only at h
      obtain ⟨rfl, f1, f2, -⟩ := parseCspan_iff.1 hr
      by_cases hb : ∃ u, r = c!"\", line " ++ u
      swap
      · rw [skipString_fail hb] at h
        cases h
      obtain ⟨u, rfl⟩ := hb
      rw [skipString_append] at h
      dsimp only at h
      rw [if_neg (by decide)] at h
      obtain ⟨⟨n, o, r⟩, hn⟩ := parseUint32_fine u
      rw [hn, Out.bind_ok] at h
      cases o with
      | none => cases h
      | some line =>
        dsimp only at h
        obtain ⟨d, rfl, hd, -, -⟩ := parseUint32_iff.1 hn
        obtain ⟨o, ho⟩ := functionName_fine r
        rw [ho, Out.bind_ok] at h
        cases o with
        | none => cases h
        | some x =>
          obtain ⟨⟨sp, fn⟩, r2⟩ := x
          dsimp only at h
          have hfn := functionName_iff.1 ho
          obtain ⟨⟨b, r3⟩, h3⟩ := skipChar_fine r2 (c := '\n') (by decide)
          rw [h3, Out.bind_ok] at h
          dsimp only at h
          obtain ⟨⟨src, r4⟩, h4⟩ := sourceLine_fine r3
          rw [h4, Out.bind_ok] at h
          dsimp only at h
          injection h with h
          simp only [Option.some.injEq, Prod.mk.injEq] at h
          obtain ⟨rfl, rfl⟩ := h
          exact ⟨file, (stripSpecial file).1, (stripSpecial file).2, d, line, r, sp, fn, r2, r3, src, by simp, f1, notin f2,
            stripSpecial_iff.1 rfl, hd, hfn, (skipNl_end hfn.atEnd).1 ⟨b, h3⟩, sourceLine_iff.1 h4, rfl⟩
  · rintro ⟨file, special, fileName, digits, line, s1, special', functionName, s2, s3, source, rfl, h1, h2, h3, h4, h5, h6, h7, rfl⟩
    rw [List.append_assoc, List.append_assoc, List.append_assoc, skipString_append]
    dsimp only
    rw [if_neg (by decide), parseCspan_iff.2 ⟨rfl, h1, notin' h2, .inr (by simp)⟩, Out.bind_ok]
    dsimp only
    rw [skipString_append]
    dsimp only
    rw [if_neg (by decide), parseUint32_iff.2 ⟨digits, rfl, h4, rfl, h5.notDigit⟩, Out.bind_ok]
    dsimp only
    rw [functionName_iff.2 h5, Out.bind_ok]
    dsimp only
    obtain ⟨b, hb⟩ := (skipNl_end h5.atEnd).2 h6
    rw [hb, Out.bind_ok]
    dsimp only
    rw [sourceLine_iff.2 h7, Out.bind_ok, stripSpecial_iff.2 h3]

theorem marks_nl {m : Str} (h : Marks m) : '\n' ∉ m := by
  intro hc
  have := h _ hc
  revert this
  decide

theorem skipErrorLine_iff {s t : Str} : skipErrorLine s = .ok t ↔ AfterMarks s t := by
  unfold skipErrorLine AfterMarks
  have split : ∀ m r, Marks m → skipCharCspan (m ++ c!"\n" ++ r) c!"\n" = .ok (m.length, '\n' :: r) := by
    intro m r hm
    rw [List.append_assoc]
    exact skipCspan_append (notin' (marks_nl hm)) (.inr (by simp))
  by_cases he : isErrorLine s = true
  · rw [if_pos he]
    obtain ⟨m, r, rfl, hm, hr⟩ := (isErrorLine_iff s).1 he
    rcases hr with rfl | hr
    · have h1 : skipCharCspan (m ++ []) c!"\n" = .ok (m.length, []) :=
        skipCspan_append (notin' (marks_nl hm)) (.inl rfl)
      rw [h1, Out.bind_ok]
      constructor
      · intro h; cases h
      · rw [List.append_nil]
        rintro (⟨m', -, h⟩ | ⟨-, ⟨c, hc, hn⟩, -⟩)
        · exact absurd (h ▸ by simp) (marks_nl hm)
        · exact absurd (hm c hc) hn
    · cases r with
      | nil => exact absurd hr (by decide)
      | cons c r =>
        have : c = '\n' := hr
        subst this
        have e : m ++ '\n' :: r = m ++ c!"\n" ++ r := by simp
        rw [e, split m r hm, Out.bind_ok]
        show Out.ok r = Out.ok t ↔ _
        constructor
        · intro h
          injection h with h
          subst h
          exact .inl ⟨m, hm, rfl⟩
        · rintro (⟨m', hm', h⟩ | ⟨-, -, h⟩)
          · rw [List.append_assoc, List.append_assoc] at h
            have h' : m ++ '\n' :: r = m' ++ '\n' :: t := h
            have : m = m' ∧ r = t := by
              have hs1 := split m r hm
              have hs2 := split m' t hm'
              rw [show m ++ c!"\n" ++ r = m' ++ c!"\n" ++ t by simpa using h', hs2] at hs1
              injection hs1 with hs1
              simp only [Prod.mk.injEq, List.cons.injEq, true_and] at hs1
              exact ⟨(List.append_inj h' hs1.1.symm).1, hs1.2.symm⟩
            rw [this.2]
          · exact absurd ⟨m, r, hm, rfl⟩ h
  · rw [if_neg he]
    have hno : ¬ ∃ m r, Marks m ∧ s = m ++ c!"\n" ++ r := by
      rintro ⟨m, r, hm, rfl⟩
      exact he ((isErrorLine_iff _).2 ⟨m, '\n' :: r, by simp, hm, .inr rfl⟩)
    have hc : ∃ c ∈ s, c ∉ c!" ^~" := by
      by_contra hc
      apply he
      refine (isErrorLine_iff s).2 ⟨s, [], by simp, fun c hcs => ?_, .inl rfl⟩
      by_contra hn
      exact hc ⟨c, hcs, hn⟩
    constructor
    · intro h
      injection h with h
      exact .inr ⟨h.symm, hc, hno⟩
    · rintro (⟨m, hm, h⟩ | ⟨h, -, -⟩)
      · exact absurd ⟨m, t, hm, h⟩ hno
      · rw [h]

theorem BodyText.file {s t : Str} {f : PythonFrame} (h : BodyText s f t) : ∃ u, s = c!"  File" ++ u := by
  obtain ⟨file, _, _, digits, _, s1, _, _, _, _, _, rfl, -⟩ := h
  exact ⟨c!" \"" ++ file ++ c!"\", line " ++ digits ++ s1, by simp⟩

theorem frameText_iff {s t : Str} {f : PythonFrame} : FrameText s f t ↔ ∃ u, AfterMarks s u ∧ BodyText u f t := by
  constructor
  · rintro ⟨marks, file, special, fileName, digits, line, s1, special', functionName, s2, s3, source, h0, h1, h2, h3, h4, h5, h6, h7, rfl⟩
    refine ⟨c!"  File \"" ++ file ++ c!"\", line " ++ digits ++ s1, ?_,
      ⟨file, special, fileName, digits, line, s1, special', functionName, s2, s3, source, rfl, h1, h2, h3, h4, h5, h6, h7, rfl⟩⟩
    rcases h0 with h0 | ⟨hm, h0⟩
    · right
      refine ⟨h0.symm, ⟨'F', by rw [h0]; simp, by decide⟩, ?_⟩
      rintro ⟨m, r, hm, e⟩
      rw [h0] at e
      have hF : ∀ m' : Str, Marks m' → ∀ r' u : Str, m' ++ ('\n' :: r') ≠ ' ' :: ' ' :: 'F' :: u := by
        intro m' hm' r' u he
        rcases m' with _ | ⟨a, _ | ⟨b, _ | ⟨c, m'⟩⟩⟩
        · simp at he
        · simp at he
        · simp at he
        · simp only [List.cons_append, List.cons.injEq] at he
          have := hm' c (by simp)
          rw [he.2.2.1] at this
          revert this; decide
      apply hF m hm r (c!"ile \"" ++ file ++ c!"\", line " ++ digits ++ s1)
      have e' := e.symm
      simp only [List.append_assoc] at e' ⊢
      exact e'
    · left
      exact ⟨marks, hm, h0⟩
  · rintro ⟨u, hm, file, special, fileName, digits, line, s1, special', functionName, s2, s3, source, rfl, h1, h2, h3, h4, h5, h6, h7, rfl⟩
    rcases hm with ⟨m, hm, rfl⟩ | ⟨e, -, -⟩
    · exact ⟨m, file, special, fileName, digits, line, s1, special', functionName, s2, s3, source, .inr ⟨hm, rfl⟩,
        h1, h2, h3, h4, h5, h6, h7, rfl⟩
    · exact ⟨[], file, special, fileName, digits, line, s1, special', functionName, s2, s3, source, .inl e.symm,
        h1, h2, h3, h4, h5, h6, h7, rfl⟩

/-- **C52.** A frame is read exactly from the texts that begin with it. -/
theorem C52_frame (s : Str) (f : PythonFrame) (t : Str) : parseFrame s = .ok (some f, t) ↔ FrameText s f t := by
  rw [frameText_iff]
  unfold parseFrame
  constructor
  · intro h
    cases hs : skipErrorLine s with
    | abort => rw [hs] at h; cases h
    | ub => rw [hs] at h; cases h
    | ok u =>
      rw [hs, Out.bind_ok] at h
      obtain ⟨o, ho⟩ := frameBody_fine u
      rw [ho, Out.bind_ok] at h
      cases o with
      | none => injection h with h; simp at h
      | some x =>
        obtain ⟨f', t'⟩ := x
        injection h with h
        simp only [Prod.mk.injEq, Option.some.injEq] at h
        obtain ⟨rfl, rfl⟩ := h
        exact ⟨u, skipErrorLine_iff.1 hs, frameBody_iff.1 ho⟩
  · rintro ⟨u, h1, h2⟩
    rw [skipErrorLine_iff.2 h1, Out.bind_ok, frameBody_iff.2 h2, Out.bind_ok]

theorem afterMarks_unique {s t u : Str} (h1 : AfterMarks s t) (h2 : AfterMarks s u) : t = u := by
  have := (skipErrorLine_iff.2 h1).symm.trans (skipErrorLine_iff.2 h2)
  injection this

/-- What is no frame. -/
theorem parseFrame_none {s t : Str} : parseFrame s = .ok (none, t) ↔ AfterMarks s t ∧ ¬ ∃ f u, FrameText s f u := by
  unfold parseFrame
  constructor
  · intro h
    cases hs : skipErrorLine s with
    | abort => rw [hs] at h; cases h
    | ub => rw [hs] at h; cases h
    | ok u =>
      rw [hs, Out.bind_ok] at h
      obtain ⟨o, ho⟩ := frameBody_fine u
      rw [ho, Out.bind_ok] at h
      cases o with
      | some x => injection h with h; simp at h
      | none =>
        injection h with h
        simp only [Prod.mk.injEq, true_and] at h
        subst h
        refine ⟨skipErrorLine_iff.1 hs, ?_⟩
        rintro ⟨f, v, hf⟩
        obtain ⟨w, hw, hb⟩ := frameText_iff.1 hf
        have := afterMarks_unique hw (skipErrorLine_iff.1 hs)
        subst this
        rw [frameBody_iff.2 hb] at ho
        injection ho with ho
        cases ho
  · rintro ⟨h1, h2⟩
    rw [skipErrorLine_iff.2 h1, Out.bind_ok]
    obtain ⟨o, ho⟩ := frameBody_fine t
    rw [ho, Out.bind_ok]
    cases o with
    | none => rfl
    | some x =>
      exact absurd ⟨x.1, x.2, frameText_iff.2 ⟨t, h1, frameBody_iff.1 ho⟩⟩ h2

theorem framesLoop_iff : ∀ (fuel : Nat) (s : Str) (acc r : List PythonFrame) (t : Str), s.length < fuel →
    (framesLoop fuel s acc = .ok (r, t) ↔ ∃ fs, Frames s fs t ∧ r = fs.reverse ++ acc) := by
  intro fuel
  induction fuel with
  | zero => intro s acc r t h; omega
  | succ n ih =>
    intro s acc r t hl
    rw [framesLoop]
    constructor
    · intro h
      cases hp : parseFrame s with
      | abort => rw [hp] at h; cases h
      | ub => rw [hp] at h; cases h
      | ok x =>
        obtain ⟨o, u⟩ := x
        rw [hp, Out.bind_ok] at h
        cases o with
        | none =>
          injection h with h
          simp only [Prod.mk.injEq] at h
          obtain ⟨rfl, rfl⟩ := h
          obtain ⟨h1, h2⟩ := parseFrame_none.1 hp
          exact ⟨[], .done s u h1 h2, by simp⟩
        | some f =>
          dsimp only at h
          have hlt := parseFrame_post s _ hp f rfl
          obtain ⟨fs, h1, h2⟩ := (ih u (f :: acc) r t (by dsimp only at hlt; omega)).1 h
          exact ⟨f :: fs, .more s u t f fs ((C52_frame s f u).1 hp) h1, by rw [h2]; simp⟩
    · rintro ⟨fs, hf, rfl⟩
      cases hf with
      | done _ _ h1 h2 =>
        rw [parseFrame_none.2 ⟨h1, h2⟩, Out.bind_ok]
        simp
      | more _ u _ f fs h1 h2 =>
        have hp := (C52_frame s f u).2 h1
        have hlt := parseFrame_post s _ hp f rfl
        rw [hp, Out.bind_ok]
        dsimp only
        exact (ih u (f :: acc) _ t (by dsimp only at hlt; omega)).2 ⟨fs, h2, by simp⟩

theorem begins_iff {inp s : Str} : start inp = .ok (some s) ↔ Begins inp s := by
  have hne : header ≠ [] := by decide
  have hnul : NoNul header := by unfold NoNul; decide
  -- the newline before the header does not matter
  have nl : ∀ c : Str, (∀ a b, '\n' :: c = a ++ header ++ b → ∃ a', a = '\n' :: a' ∧ c = a' ++ header ++ b) := by
    intro c a b h
    cases a with
    | nil => simp [header] at h
    | cons x a =>
      simp only [List.cons_append, List.cons.injEq] at h
      obtain ⟨rfl, h⟩ := h
      exact ⟨a, rfl, h⟩
  have first : ∀ c r, (∃ pre, FirstAt header c pre r) ↔ ∃ pre, FirstAt header ('\n' :: c) pre r := by
    intro c r
    constructor
    · rintro ⟨pre, h1, h2⟩
      refine ⟨'\n' :: pre, by rw [h1]; simp, fun pre' rest' h => ?_⟩
      obtain ⟨a', rfl, h'⟩ := nl c pre' rest' h
      have := h2 a' rest' h'
      simpa using this
    · rintro ⟨pre, h1, h2⟩
      obtain ⟨a', rfl, h'⟩ := nl c pre r h1
      refine ⟨a', h', fun pre' rest' h => ?_⟩
      have := h2 ('\n' :: pre') rest' (by rw [h]; simp)
      simpa using this
  have occ : ∀ c, (∃ a b, c = a ++ header ++ b) ↔ ∃ a b, '\n' :: c = a ++ header ++ b := by
    intro c
    constructor
    · rintro ⟨a, b, rfl⟩; exact ⟨'\n' :: a, b, by simp⟩
    · rintro ⟨a, b, h⟩
      obtain ⟨a', -, h'⟩ := nl c a b h
      exact ⟨a', b, h'⟩
  have key : ∀ c : Str, (∀ r, (∃ pre, FirstAt header c pre r) ↔ ∃ pre, FirstAt header inp pre r) →
      ((∃ a b, c = a ++ header ++ b) ↔ ∃ a b, inp = a ++ header ++ b) →
      ((match (strstrLocation c header).1 with
        | some t => Out.ok (some (t.drop header.length))
        | none =>
          match (strstrLocation inp c!"invalid syntax (").1 with
          | none => .ok none
          | some t => .ok (strstrLocation t c!"  File \"").1) = .ok (some s) ↔ Begins inp s) := by
    intro c hf ho
    cases hs : (strstrLocation c header).1 with
    | some t =>
      dsimp only
      obtain ⟨pre, rest, h1, rfl⟩ := (strstr_some hne hnul).1 hs
      rw [List.drop_left]
      constructor
      · intro h
        injection h with h
        injection h with h
        subst h
        exact .inl ((hf _).1 ⟨pre, h1⟩)
      · rintro (h | ⟨h, -⟩)
        · obtain ⟨pre', h'⟩ := (hf s).2 h
          rw [(h1.unique h').2]
        · exact absurd (ho.1 ⟨pre, rest, h1.1⟩) h
    | none =>
      dsimp only
      have hno := mt ho.2 ((strstr_none hne hnul).1 hs)
      have ne1 : c!"invalid syntax (" ≠ [] := by decide
      have nu1 : NoNul c!"invalid syntax (" := by unfold NoNul; decide
      have ne2 : c!"  File \"" ≠ [] := by decide
      have nu2 : NoNul c!"  File \"" := by unfold NoNul; decide
      cases h2 : (strstrLocation inp c!"invalid syntax (").1 with
      | none =>
        dsimp only
        constructor
        · intro h; injection h with h; cases h
        · rintro (⟨pre, h⟩ | ⟨-, pre, mid, _, _, h, -⟩)
          · exact absurd ⟨pre, s, h.1⟩ hno
          · exact absurd ⟨pre, mid, h.1⟩ ((strstr_none ne1 nu1).1 h2)
      | some t =>
        dsimp only
        obtain ⟨pre, mid, h3, rfl⟩ := (strstr_some ne1 nu1).1 h2
        constructor
        · intro h
          injection h with h
          obtain ⟨pre', rest, h4, rfl⟩ := (strstr_some ne2 nu2).1 h
          exact .inr ⟨hno, pre, mid, pre', rest, h3, h4, rfl⟩
        · rintro (⟨pre, h⟩ | ⟨-, pre2, mid2, pre', rest, h4, h5, rfl⟩)
          · exact absurd ⟨pre, s, h.1⟩ hno
          · obtain ⟨-, rfl⟩ := h3.unique h4
            rw [(strstr_some ne2 nu2).2 ⟨pre', rest, h5, rfl⟩]
  unfold start
  by_cases hp : peek inp = '\n'
  · cases inp with
    | nil => exact absurd hp (by decide)
    | cons c inp =>
      have : c = '\n' := hp
      subst this
      rw [skipChar_cons (by decide), Out.bind_ok]
      exact key inp (first inp) (occ inp)
  · rw [skipChar_not (by decide) hp, Out.bind_ok]
    exact key inp (fun _ => Iff.rfl) Iff.rfl

theorem start_fine (inp : Str) : Fine (start inp) := by
  unfold start
  refine (skipChar_fine inp (by decide)).bind fun a _ => ?_
  dsimp only
  cases (strstrLocation a.2 header).1 with
  | some t => exact .ok _
  | none =>
    dsimp only
    cases (strstrLocation inp c!"invalid syntax (").1 <;> exact .ok _

/-- **C52.** Exactly these texts are read as tracebacks, with this result: after the place where the frames begin, there is at
least one frame, then comes the name of the exception, which ends at a colon or at the end of the line. The frames of the result
are in reverse order. -/
theorem C52_texts (inp : Str) (tr : PythonTrace) (rest : Str) : parse inp = .ok (some (tr, rest)) ↔
    ∃ s fs name, Begins inp s ∧ Frames s fs (name ++ rest) ∧ fs ≠ [] ∧ name ≠ [] ∧ ':' ∉ name ∧ '\n' ∉ name ∧
      (rest = [] ∨ peek rest = ':' ∨ peek rest = '\n') ∧ tr = ⟨some name, fs.reverse⟩ := by
  have pe : ∀ r : Str, (r = [] ∨ peek r ∈ c!":\n") ↔ (r = [] ∨ peek r = ':' ∨ peek r = '\n') := by intro r; simp
  have nm : ∀ x : Str, (∀ c ∈ x, c ∉ c!":\n") ↔ ':' ∉ x ∧ '\n' ∉ x := by
    intro x
    constructor
    · intro h
      exact ⟨fun hc => h _ hc (by simp), fun hc => h _ hc (by simp)⟩
    · rintro ⟨h1, h2⟩ c hc hm
      simp only [List.mem_cons, List.not_mem_nil, or_false] at hm
      rcases hm with rfl | rfl
      · exact h1 hc
      · exact h2 hc
  unfold parse
  constructor
  · intro h
    obtain ⟨o, ho⟩ := start_fine inp
    rw [ho, Out.bind_ok] at h
    cases o with
    | none => cases h
    | some s =>
      dsimp only at h
      cases hl : framesLoop (s.length + 1) s [] with
      | abort => rw [hl] at h; cases h
      | ub => rw [hl] at h; cases h
      | ok x =>
        obtain ⟨r, u⟩ := x
        rw [hl, Out.bind_ok] at h
        dsimp only at h
        obtain ⟨fs, h1, rfl⟩ := (framesLoop_iff _ s [] r u (by omega)).1 hl
        rw [List.append_nil] at h hl
        split at h
        · cases h
        · next hne =>
          obtain ⟨⟨o, v⟩, hv⟩ := parseCharCspan_fine u c!":\n"
          rw [hv, Out.bind_ok] at h
          cases o with
          | none => cases h
          | some name =>
            dsimp only at h
            injection h with h
            simp only [Option.some.injEq, Prod.mk.injEq] at h
            obtain ⟨rfl, rfl⟩ := h
            obtain ⟨rfl, h2, h3, h4⟩ := parseCspan_iff.1 hv
            exact ⟨s, fs, name, begins_iff.1 ho, h1, by simpa using hne, h2, ((nm _).1 h3).1, ((nm _).1 h3).2, (pe _).1 h4, rfl⟩
  · rintro ⟨s, fs, name, h1, h2, h3, h4, h5, h6, h7, rfl⟩
    rw [begins_iff.2 h1, Out.bind_ok]
    dsimp only
    rw [(framesLoop_iff _ s [] fs.reverse (name ++ rest) (by omega)).2 ⟨fs, h2, by simp⟩, Out.bind_ok]
    dsimp only
    rw [if_neg (by simpa using h3), parseCspan_iff.2 ⟨rfl, h4, (nm _).2 ⟨h5, h6⟩, (pe _).2 h7⟩, Out.bind_ok]

/-! ### Non-vacuity -/

example : FrameText c!"    ~~~^^\n  File \"/home/me/a.py\", line 12, in <module>\n    x = y\nValueError: z"
    ⟨false, some (anonymizePath c!"/home/me/a.py"), 12, true, some c!"module", some c!"x = y"⟩ c!"ValueError: z" :=
  (C52_frame _ _ _).1 (by decide +kernel)
example : FrameText c!"  File \"<stdin>\", line 007\n    \n" ⟨true, some c!"stdin", 7, true, some c!"syntax", none⟩ c!"\n" :=
  (C52_frame _ _ _).1 (by decide +kernel)
example : ¬ ∃ f t, FrameText c!"  File \"a\", line 4294967296, in f\n" f t := by
  rintro ⟨f, t, h⟩
  have h1 := (C52_frame _ _ _).2 h
  have h2 : parseFrame c!"  File \"a\", line 4294967296, in f\n" = .ok (none, c!"  File \"a\", line 4294967296, in f\n") := by decide +kernel
  rw [h2] at h1
  injection h1 with h1
  simp at h1

end Satyr.Text.Python
