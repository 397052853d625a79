import Verif.Text.PythonModel
import Mathlib.Tactic.Tauto
/-!
# C52: Python tracebacks
-/
namespace Satyr.Text.Python
open Satyr.CStr Satyr.Frames

/-! ## Specification: what Python prints -/

/-- The name of a file or function; special ones, like `<module>` and `<stdin>`, are printed in angle brackets. -/
structure Name where
  special : Bool
  text : Str

/-- The printed form of a name. -/
def Name.print (n : Name) : Str := if n.special then '<' :: n.text ++ ['>'] else n.text

/-- Other names are not empty and not in angle brackets. -/
def Name.WF (n : Name) : Prop := n.special = false → n.text ≠ [] ∧ ¬ ∃ t, n.text = '<' :: t ++ ['>']

/-- One call of a traceback: file and line, function (missing for a syntax error), the source line, if known, and a line that
marks a part of it. -/
structure Entry where
  file : Name
  line : Nat
  function : Option Name
  source : Option Str
  marks : Option Str

/-- The lines without the marks. -/
def Entry.body (e : Entry) : Str :=
  c!"  File \"" ++ e.file.print ++ c!"\", line " ++ natDec e.line ++
    (match e.function with | none => [] | some f => c!", in " ++ f.print) ++ c!"\n" ++
    (match e.source with | none => [] | some s => c!"    " ++ s ++ c!"\n")

/-- The line of marks. -/
def marksText : Option Str → Str
  | none => []
  | some m => m ++ c!"\n"

/-- The printed form of a call. -/
def Entry.text (e : Entry) : Str := e.body ++ marksText e.marks

/-- Names do not contain what ends them. -/
structure Entry.WF (e : Entry) : Prop where
  file : e.file.WF ∧ '"' ∉ e.file.print
  line : e.line < 2 ^ 32
  function : ∀ f, e.function = some f → f.WF ∧ '\n' ∉ f.print
  source : ∀ s, e.source = some s → s ≠ [] ∧ '\n' ∉ s
  marks : ∀ m, e.marks = some m → e.source ≠ none ∧ ∀ c ∈ m, c ∈ c!" ^~"

/-- What should be read of a call. The user name of a home directory is replaced; a missing function is called `<syntax>`. -/
def Entry.frame (e : Entry) : PythonFrame :=
  ⟨e.file.special, some (anonymizePath e.file.text), e.line, (e.function.map (·.special)).getD true,
    some ((e.function.map (·.text)).getD c!"syntax"), e.source⟩

/-! ## Proofs -/

theorem Name.print_ne {n : Name} (h : n.WF) : n.print ≠ [] := by
  unfold Name.print
  cases hs : n.special with
  | true => simp
  | false => simpa using (h hs).1

theorem strip_print {n : Name} (h : n.WF) : stripSpecial n.print = (n.special, n.text) := by
  unfold stripSpecial Name.print
  cases hs : n.special with
  | true =>
    have e : '<' :: n.text ++ ['>'] = ('<' :: n.text) ++ ['>'] := rfl
    simp only [if_true]
    rw [if_pos ⟨by len, rfl, by rw [List.getLast?_concat]⟩, List.dropLast_concat]
    rfl
  | false =>
    simp only [Bool.false_eq_true, if_false]
    rw [if_neg]
    rintro ⟨-, h1, h2⟩
    obtain ⟨l, hl⟩ := List.getLast?_eq_some_iff.1 h2
    cases l with
    | nil => rw [hl] at h1; exact absurd h1 (by decide)
    | cons c l =>
      rw [hl] at h1
      have : c = '<' := h1
      exact (h hs).2 ⟨l, by rw [hl, this]⟩

theorem isErrorLine_marks (m r : Str) (h : ∀ c ∈ m, c ∈ c!" ^~") : isErrorLine (m ++ '\n' :: r) = true := by
  induction m with
  | nil => rfl
  | cons c m ih =>
    rw [List.cons_append, isErrorLine]
    split
    · rfl
    · have hc := h c (by simp)
      rw [if_neg, ih fun c hc => h c (by simp [hc])]
      rintro ⟨h1, h2, h3⟩
      simp [h1, h2, h3] at hc

theorem skip_marks (m : Option Str) (r : Str) (h : ∀ x, m = some x → ∀ c ∈ x, c ∈ c!" ^~") (hr : isErrorLine r = false) :
    skipErrorLine (marksText m ++ r) = .ok r := by
  cases m with
  | none => unfold skipErrorLine; rw [marksText, List.nil_append, hr]; rfl
  | some m =>
    have hm := h m rfl
    have e : marksText (some m) ++ r = m ++ '\n' :: r := by simp [marksText]
    unfold skipErrorLine
    rw [e, if_pos (isErrorLine_marks m r hm), skipCspan_append (fun c hc => by
      have := hm c hc
      simp only [List.mem_cons, List.not_mem_nil, or_false] at this ⊢
      rcases this with rfl | rfl | rfl <;> decide) (Or.inr (by simp)), Out.bind_ok]
    rfl

/-- What may follow a call without source line. -/
def NotSource (rest : Str) : Prop := startsWith rest c!"    " = false

theorem sourceLine_read (e : Entry) (h : e.WF) (rest : Str) (hr : e.source = none → NotSource rest) :
    sourceLine ((match e.source with | none => [] | some s => c!"    " ++ s ++ c!"\n") ++ rest) = .ok (e.source, rest) := by
  unfold sourceLine
  cases hs : e.source with
  | none =>
    dsimp only
    rw [List.nil_append, skipString_not (hr hs)]
    rfl
  | some s =>
    dsimp only
    obtain ⟨hne, hnl⟩ := h.source s hs
    have e1 : c!"    " ++ s ++ c!"\n" ++ rest = c!"    " ++ (s ++ '\n' :: rest) := by simp
    rw [e1, skipString_append]
    dsimp only
    rw [if_pos (show c!"    ".length = 4 from rfl), parseCspan_append (fun c hc => by simp; rintro rfl; exact hnl hc) (Or.inr (by simp)) hne, Out.bind_ok]
    dsimp only
    rw [if_neg (by simp), skipChar_cons (by decide), Out.bind_ok]

theorem functionName_read (e : Entry) (h : e.WF) (rest : Str) :
    functionName ((match e.function with | none => [] | some f => c!", in " ++ f.print) ++ '\n' :: rest) =
      .ok (some (((e.function.map (·.special)).getD true, (e.function.map (·.text)).getD c!"syntax"), '\n' :: rest)) := by
  unfold functionName
  cases hf : e.function with
  | none =>
    dsimp only
    rw [List.nil_append, skipString_not (by rfl)]
    rfl
  | some f =>
    dsimp only
    obtain ⟨hw, hnl⟩ := h.function f hf
    rw [List.append_assoc, skipString_append]
    dsimp only
    rw [if_neg (by decide), parseCspan_append (fun c hc => by simp; rintro rfl; exact hnl hc) (Or.inr (by simp)) (Name.print_ne hw),
      Out.bind_ok]
    dsimp only
    rw [strip_print hw]
    rfl

theorem frameBody_read (e : Entry) (h : e.WF) (rest : Str) (hr : e.source = none → NotSource rest) :
    frameBody (e.body ++ rest) = .ok (some (e.frame, rest)) := by
  have e1 : e.body ++ rest = c!"  File \"" ++ (e.file.print ++ (c!"\", line " ++ (natDec e.line ++
      ((match e.function with | none => [] | some f => c!", in " ++ f.print) ++ '\n' ::
        ((match e.source with | none => [] | some s => c!"    " ++ s ++ c!"\n") ++ rest))))) := by
    unfold Entry.body
    simp
  unfold frameBody
  rw [e1, skipString_append]
  dsimp only
  rw [if_neg (by decide), parseCspan_append (fun c hc => by simp; rintro rfl; exact h.file.2 hc) (Or.inr (by simp))
    (Name.print_ne h.file.1), Out.bind_ok]
  dsimp only
  rw [skipString_append]
  dsimp only
  have hd : IsDec (peek ((match e.function with | none => [] | some f => c!", in " ++ f.print) ++ '\n' ::
        ((match e.source with | none => [] | some s => c!"    " ++ s ++ c!"\n") ++ rest))) = false := by
    cases e.function <;> rfl
  rw [if_neg (by decide), (C25_round_trip e.line _ hd).1 h.line, Out.bind_ok]
  dsimp only
  rw [functionName_read e h, Out.bind_ok]
  dsimp only
  rw [skipChar_cons (by decide), Out.bind_ok]
  dsimp only
  rw [sourceLine_read e h rest hr, Out.bind_ok]
  dsimp only
  rw [strip_print h.file.1]
  rfl

theorem isErrorLine_body (e : Entry) (rest : Str) : isErrorLine (e.body ++ rest) = false := by
  unfold Entry.body
  simp only [List.append_assoc]
  rfl

theorem step (m : Option Str) (hm : ∀ x, m = some x → ∀ c ∈ x, c ∈ c!" ^~") (e : Entry) (h : e.WF) (rest : Str)
    (hr : e.source = none → NotSource rest) : parseFrame (marksText m ++ (e.body ++ rest)) = .ok (some e.frame, rest) := by
  unfold parseFrame
  rw [skip_marks m _ hm (isErrorLine_body e rest), Out.bind_ok, frameBody_read e h rest hr, Out.bind_ok]

/-- The start of the line after the calls: it is neither a line of marks, nor a call. -/
def Final (final : Str) : Prop := final ≠ [] ∧ peek final ∉ c!" ^~\n"

theorem Final.notFrame {final : Str} (h : Final final) (m : Option Str) (hm : ∀ x, m = some x → ∀ c ∈ x, c ∈ c!" ^~") :
    parseFrame (marksText m ++ final) = .ok (none, final) := by
  obtain ⟨hne, hp⟩ := h
  obtain ⟨c, t, rfl⟩ := List.exists_cons_of_ne_nil hne
  simp only [peek_cons, List.mem_cons, List.not_mem_nil, or_false, not_or] at hp
  obtain ⟨h1, h2, h3, h4⟩ := hp
  have hl : isErrorLine (c :: t) = false := by
    rw [isErrorLine, if_neg h4, if_pos ⟨h1, h2, h3⟩]
  have hs : startsWith (c :: t) c!"  File \"" = false := by
    rw [startsWith, List.isPrefixOf_cons_cons]
    simp [Ne.symm h1]
  unfold parseFrame
  rw [skip_marks m _ hm hl, Out.bind_ok]
  have : frameBody (c :: t) = .ok none := by
    unfold frameBody
    rw [skipString_not hs]
    rfl
  rw [this, Out.bind_ok]

theorem Final.notSource {final : Str} (h : Final final) : NotSource final := by
  obtain ⟨hne, hp⟩ := h
  obtain ⟨c, t, rfl⟩ := List.exists_cons_of_ne_nil hne
  simp only [peek_cons, List.mem_cons, List.not_mem_nil, or_false, not_or] at hp
  rw [NotSource, startsWith, List.isPrefixOf_cons_cons]
  simp [Ne.symm hp.1]

theorem loop_read (es : List Entry) (h : ∀ e ∈ es, e.WF) (final : Str) (hf : Final final) (m : Option Str)
    (hm : ∀ x, m = some x → ∀ c ∈ x, c ∈ c!" ^~") (fuel : Nat) (acc : List PythonFrame)
    (hfuel : (marksText m ++ (es.flatMap Entry.text ++ final)).length < fuel) :
    framesLoop fuel (marksText m ++ (es.flatMap Entry.text ++ final)) acc = .ok ((es.map Entry.frame).reverse ++ acc, final) := by
  induction es generalizing m fuel acc with
  | nil =>
    obtain ⟨fuel, rfl⟩ : ∃ k, fuel = k + 1 := ⟨fuel - 1, by omega⟩
    rw [framesLoop, List.flatMap_nil, List.nil_append, hf.notFrame m hm, Out.bind_ok]
    rfl
  | cons e es ih =>
    obtain ⟨fuel, rfl⟩ : ∃ k, fuel = k + 1 := ⟨fuel - 1, by omega⟩
    have he := h e (by simp)
    have e1 : (e :: es).flatMap Entry.text ++ final = e.body ++ (marksText e.marks ++ (es.flatMap Entry.text ++ final)) := by
      simp [Entry.text]
    rw [e1] at hfuel ⊢
    have hns : e.source = none → NotSource (marksText e.marks ++ (es.flatMap Entry.text ++ final)) := by
      intro hs
      have : e.marks = none := by
        cases hm : e.marks with
        | none => rfl
        | some m => exact absurd hs (he.marks m hm).1
      rw [this, marksText, List.nil_append]
      cases es with
      | nil => exact hf.notSource
      | cons e' es =>
        rw [List.flatMap_cons, Entry.text, Entry.body]
        simp only [List.append_assoc]
        rfl
    rw [framesLoop, step m hm e he _ hns, Out.bind_ok]
    dsimp only
    rw [ih (fun e he => h e (by simp [he])) e.marks (fun x hx => (he.marks x hx).2) fuel _ (by
      rw [List.length_append, List.length_append] at hfuel
      have : 0 < e.body.length := by unfold Entry.body; simp
      omega)]
    simp

theorem start_read (pre rest : Str)
    (hfirst : ∀ pre' rest', pre ++ header ++ rest = pre' ++ header ++ rest' → pre.length ≤ pre'.length) :
    start (pre ++ header ++ rest) = .ok (some rest) := by
  unfold start
  have hne : header ≠ [] := by decide
  have hnul : NoNul header := by unfold NoNul; decide
  have key : ∀ p, (∀ pre' rest', p ++ header ++ rest = pre' ++ header ++ rest' → p.length ≤ pre'.length) →
      (match (strstrLocation (p ++ header ++ rest) header).1 with
        | some t => Out.ok (some (t.drop header.length))
        | none =>
          match (strstrLocation (pre ++ header ++ rest) c!"invalid syntax (").1 with
          | none => .ok none
          | some t => .ok (strstrLocation t c!"  File \"").1) = .ok (some rest) := by
    intro p hp
    rw [(C28_strstr _ header hne hnul).1 p rest rfl hp]
    dsimp only
    rw [List.drop_left]
  by_cases hnl : peek (pre ++ header ++ rest) = '\n'
  · cases pre with
    | nil => exact absurd hnl (by simp [header])
    | cons c p =>
      have hc : c = '\n' := hnl
      subst hc
      have e : ('\n' :: p) ++ header ++ rest = '\n' :: (p ++ header ++ rest) := rfl
      rw [e, skipChar_cons (by decide), Out.bind_ok]
      refine key p fun pre' rest' h => ?_
      have := hfirst ('\n' :: pre') rest' (by simp at h ⊢; exact h)
      simpa using this
  · rw [skipChar_not (by decide) hnl, Out.bind_ok]
    exact key pre hfirst

/-- C52: from a traceback as Python prints it, with anything before it, the calls are read in reverse order, each with its file,
line, function and source line, and the name of the exception is read. -/
theorem C52_read_partial (pre : Str) (es : List Entry) (name tail : Str) (hes : es ≠ []) (h : ∀ e ∈ es, e.WF)
    (hn : name ≠ []) (hp : peek name ∉ c!" ^~") (h1 : ':' ∉ name) (h2 : '\n' ∉ name) (ht : tail = [] ∨ peek tail ∈ c!":\n")
    (hfirst : ∀ pre' rest', pre ++ header ++ (es.flatMap Entry.text ++ (name ++ tail)) = pre' ++ header ++ rest' → pre.length ≤ pre'.length) :
    parse (pre ++ header ++ (es.flatMap Entry.text ++ (name ++ tail))) =
      .ok (some (⟨some name, (es.map Entry.frame).reverse⟩, tail)) := by
  have hf : Final (name ++ tail) := by
    refine ⟨by simp [hn], ?_⟩
    rw [peek_append hn]
    intro hm
    obtain ⟨c, t, rfl⟩ := List.exists_cons_of_ne_nil hn
    simp only [peek_cons, List.mem_cons, List.not_mem_nil, or_false, not_or] at hp hm
    rcases hm with hm | hm | hm | hm
    · exact hp.1 hm
    · exact hp.2.1 hm
    · exact hp.2.2 hm
    · exact h2 (by simp [hm])
  unfold parse
  rw [start_read pre _ hfirst, Out.bind_ok]
  dsimp only
  have := loop_read es h (name ++ tail) hf none (by rintro x ⟨⟩) ((es.flatMap Entry.text ++ (name ++ tail)).length + 1) []
    (by rw [marksText, List.nil_append]; omega)
  rw [marksText, List.nil_append] at this
  rw [this, Out.bind_ok]
  dsimp only
  rw [if_neg (by simp [hes]), parseCspan_append (fun c hc => by
    simp only [List.mem_cons, List.not_mem_nil, or_false]
    rintro (rfl | rfl)
    · exact h1 hc
    · exact h2 hc) ht hn, Out.bind_ok]
  simp

example : parse c!"x\nTraceback (most recent call last):\n  File \"a.py\", line 1, in <module>\n    f(x)\n    ~^^^\n  File \"<stdin>\", line 2, in f\nTypeError: no\n" =
    .ok (some (⟨some c!"TypeError", [⟨true, some c!"stdin", 2, false, some c!"f", none⟩,
      ⟨false, some c!"a.py", 1, true, some c!"module", some c!"f(x)"⟩]⟩, c!": no\n")) := by decide +kernel

example : ∃ es : List Entry, es.length = 2 ∧ (∀ e ∈ es, e.WF) ∧ es.flatMap Entry.text =
    c!"  File \"a.py\", line 1, in <module>\n    f(x)\n    ~^^^\n  File \"<stdin>\", line 2, in f\n" := by
  refine ⟨[⟨⟨false, c!"a.py"⟩, 1, some ⟨true, c!"module"⟩, some c!"f(x)", some c!"    ~^^^"⟩,
    ⟨⟨true, c!"stdin"⟩, 2, some ⟨false, c!"f"⟩, none, none⟩], rfl, ?_, by decide +kernel⟩
  intro e he
  simp only [List.mem_cons, List.not_mem_nil, or_false] at he
  rcases he with rfl | rfl
  · refine ⟨⟨fun _ => ⟨by decide, by rintro ⟨t, h⟩; simp at h⟩, by decide⟩, by decide, ?_, ?_, ?_⟩
    · rintro f ⟨⟩; exact ⟨by rintro ⟨⟩, by decide⟩
    · rintro f ⟨⟩; decide
    · rintro f ⟨⟩; exact ⟨by simp, by decide⟩
  · refine ⟨⟨by rintro ⟨⟩, by decide⟩, by decide, ?_, by simp, by simp⟩
    rintro f ⟨⟩; exact ⟨fun _ => ⟨by decide, by rintro ⟨t, h⟩; simp at h⟩, by decide⟩

/-- C52 does not hold for recursion: after the line that Python prints instead of repeated calls, the remaining calls and the
exception are lost, and that line is taken for the name of the exception. -/
theorem C52_not_repeated :
    parse c!"Traceback (most recent call last):\n  File \"a\", line 1, in f\n  [Previous line repeated 9 more times]\n  File \"b\", line 2, in g\nRecursionError: x\n" =
      .ok (some (⟨some c!"  [Previous line repeated 9 more times]", [⟨false, some c!"a", 1, false, some c!"f", none⟩]⟩,
        c!"\n  File \"b\", line 2, in g\nRecursionError: x\n")) := by decide +kernel

/-! ## The end of the text -/

theorem isErrorLine_iff (s : Str) : isErrorLine s = true ↔ ∃ m r, s = m ++ r ∧ (∀ c ∈ m, c ∈ c!" ^~") ∧ (r = [] ∨ peek r = '\n') := by
  induction s with
  | nil => exact ⟨fun _ => ⟨[], [], rfl, by simp, .inl rfl⟩, fun _ => rfl⟩
  | cons c s ih =>
    rw [isErrorLine]
    by_cases hn : c = '\n'
    · rw [if_pos hn]
      exact ⟨fun _ => ⟨[], c :: s, rfl, by simp, .inr hn⟩, fun _ => rfl⟩
    · rw [if_neg hn]
      by_cases hc : c ≠ ' ' ∧ c ≠ '^' ∧ c ≠ '~'
      · rw [if_pos hc]
        refine ⟨fun h => absurd h (by decide), ?_⟩
        rintro ⟨m, r, h1, h2, h3⟩
        exfalso
        cases m with
        | nil =>
          rw [List.nil_append] at h1
          rw [← h1] at h3
          rcases h3 with h3 | h3
          · cases h3
          · exact hn h3
        | cons d m =>
          rw [List.cons_append, List.cons.injEq] at h1
          have := h2 d (by simp)
          rw [← h1.1] at this
          simp [hc] at this
      · rw [if_neg hc, ih]
        constructor
        · rintro ⟨m, r, rfl, h2, h3⟩
          refine ⟨c :: m, r, rfl, ?_, h3⟩
          intro d hd
          rcases List.mem_cons.1 hd with rfl | hd
          · simp only [List.mem_cons, List.not_mem_nil, or_false]
            tauto
          · exact h2 d hd
        · rintro ⟨m, r, h1, h2, h3⟩
          cases m with
          | nil =>
            rw [List.nil_append] at h1
            rw [← h1] at h3
            rcases h3 with h3 | h3
            · cases h3
            · exact absurd h3 hn
          | cons d m =>
            rw [List.cons_append, List.cons.injEq] at h1
            exact ⟨m, r, h1.2, fun c hc => h2 c (by simp [hc]), h3⟩

theorem functionName_fine (s : Str) : Fine (functionName s) := by
  unfold functionName
  dsimp only
  refine Fine.ite (fun _ => Fine.ite (fun _ => .ok _) fun _ => .ok _) fun _ => (parseCharCspan_fine _ _).bind fun a _ => ?_
  obtain ⟨a, b⟩ := a
  cases a <;> exact ⟨_, rfl⟩

theorem sourceLine_fine (s : Str) : Fine (sourceLine s) := by
  unfold sourceLine
  dsimp only
  exact Fine.ite (fun _ => (parseCharCspan_fine _ _).bind fun a _ => Fine.ite (fun _ => .ok _) fun _ =>
    (skipChar_fine _ (by decide)).bind fun _ _ => .ok _) fun _ => .ok _

theorem frameBody_fine (s : Str) : Fine (frameBody s) := by
  unfold frameBody
  dsimp only
  refine Fine.ite (fun _ => .ok _) fun _ => (parseCharCspan_fine _ _).bind fun a _ => ?_
  obtain ⟨a, t⟩ := a
  cases a with
  | none => exact ⟨_, rfl⟩
  | some file =>
    refine Fine.ite (fun _ => .ok _) fun _ => (parseUint32_fine _).bind fun b _ => ?_
    obtain ⟨n, v, t⟩ := b
    cases v with
    | none => exact ⟨_, rfl⟩
    | some v =>
      refine (functionName_fine _).bind fun c _ => ?_
      cases c with
      | none => exact ⟨_, rfl⟩
      | some c =>
        exact (skipChar_fine _ (by decide)).bind fun _ _ => (sourceLine_fine _).bind fun _ _ => .ok _

/-- C56 for Python frames: reading a frame leaves the text exactly if the remaining text consists of nothing but marks, for example
if it is empty. -/
theorem C56_python_frame (s : Str) :
    ((∀ c ∈ s, c ∈ c!" ^~") → parseFrame s = .ub) ∧ ((∃ c ∈ s, c ∉ c!" ^~") → ∃ r, parseFrame s = .ok r) := by
  constructor
  · intro h
    unfold parseFrame skipErrorLine
    have hnl : ∀ c ∈ s, c ∉ c!"\n" := by
      intro c hc
      have := h c hc
      simp only [List.mem_cons, List.not_mem_nil, or_false] at this ⊢
      rcases this with rfl | rfl | rfl <;> decide
    have := skipCspan_append (b := []) hnl (.inl rfl)
    rw [List.append_nil] at this
    rw [if_pos ((isErrorLine_iff s).2 ⟨s, [], by simp, h, .inl rfl⟩), this]
    rfl
  · rintro ⟨x, hx, hxn⟩
    unfold parseFrame
    refine Fine.bind ?_ fun t _ => (frameBody_fine t).bind fun r _ => ?_
    · unfold skipErrorLine
      refine Fine.ite (fun he => ?_) fun _ => .ok _
      obtain ⟨m, r, rfl, h2, h3⟩ := (isErrorLine_iff s).1 he
      rcases h3 with rfl | h3
      · rw [List.append_nil] at hx; exact absurd (h2 x hx) hxn
      · rw [skipCspan_append (fun c hc => by
          have := h2 c hc
          simp only [List.mem_cons, List.not_mem_nil, or_false] at this ⊢
          rcases this with rfl | rfl | rfl <;> decide) (Or.inr (by simp [h3])), Out.bind_ok]
        refine advance_fine ?_
        rintro rfl
        exact absurd h3 (by decide)
    · cases r <;> exact ⟨_, rfl⟩

theorem frameBody_post (s : Str) : Post (frameBody s) fun r => ∀ x, r = some x → x.2.length < s.length := by
  have h1 := skipString_len s c!"  File \""
  unfold frameBody
  dsimp only
  refine Post.ite (fun _ => .ok (by rintro x ⟨⟩)) fun h0 => (parseCharCspan_yields _ _).post.bind fun a ha => ?_
  obtain ⟨a, t⟩ := a
  dsimp only at ha
  cases a with
  | none => exact .ok (by rintro x ⟨⟩)
  | some file =>
    have h2 := skipString_len t c!"\", line "
    dsimp only
    refine Post.ite (fun _ => .ok (by rintro x ⟨⟩)) fun _ => (parseUint32_yields _).post.bind fun b hb => ?_
    obtain ⟨n, v, t'⟩ := b
    dsimp only at hb
    cases v with
    | none => exact .ok (by rintro x ⟨⟩)
    | some v =>
      have hf : Post (functionName t') fun r => ∀ x, r = some x → x.2.length ≤ t'.length := by
        have h3 := skipString_len t' c!", in "
        unfold functionName
        dsimp only
        refine Post.ite (fun _ => Post.ite (fun _ => .ok (by rintro x ⟨⟩)) fun _ => .ok ?_) fun _ =>
          (parseCharCspan_yields _ _).post.bind fun a ha => ?_
        · rintro x ⟨⟩; dsimp only; omega
        · obtain ⟨a, b⟩ := a
          dsimp only at ha
          cases a with
          | none => exact .ok (by rintro x ⟨⟩)
          | some a => refine .ok ?_; rintro x ⟨⟩; dsimp only; omega
      refine hf.bind fun c hc => ?_
      cases c with
      | none => exact .ok (by rintro x ⟨⟩)
      | some c =>
        obtain ⟨fn, u⟩ := c
        have h4 := hc _ rfl
        dsimp only at h4
        refine (skipChar_yields u (by decide)).post.bind fun d hd => ?_
        have hs : Post (sourceLine d.2) fun r => r.2.length ≤ d.2.length := by
          have h5 := skipString_len d.2 c!"    "
          unfold sourceLine
          dsimp only
          refine Post.ite (fun _ => (parseCharCspan_yields _ _).post.bind fun e he => Post.ite (fun _ => .ok ?_) fun _ =>
            (skipChar_yields e.2 (by decide)).post.bind fun g hg => .ok ?_) fun _ => .ok ?_
          all_goals (dsimp only; omega)
        refine hs.bind fun e he => .ok ?_
        rintro x ⟨⟩
        dsimp only
        omega

theorem frame_not_abort (s : Str) : parseFrame s ≠ .abort := by
  by_cases h : ∃ c ∈ s, c ∉ c!" ^~"
  · obtain ⟨r, hr⟩ := (C56_python_frame s).2 h
    rw [hr]; rintro ⟨⟩
  · rw [(C56_python_frame s).1 fun c hc => by by_contra hn; exact h ⟨c, hc, hn⟩]
    rintro ⟨⟩

/-- Reading a frame makes the text shorter. -/
theorem parseFrame_post (s : Str) : Post (parseFrame s) fun r => ∀ f, r.1 = some f → r.2.length < s.length := by
  unfold parseFrame
  have he : Post (skipErrorLine s) fun t => t.length ≤ s.length := by
    refine Post.ite (fun _ => (skipCharCspan_yields s _).post.bind fun a ha => ?_) fun _ => .ok (le_refl _)
    obtain ⟨n, a⟩ := a
    cases a with
    | nil => exact .ub
    | cons c t => exact .ok (by dsimp only at ha ⊢; simp only [List.length_cons] at ha; omega)
  refine he.bind fun t ht => (frameBody_post t).bind fun r hr => ?_
  cases r with
  | none => exact .ok (by rintro f ⟨⟩)
  | some x =>
    have := hr x rfl
    refine .ok ?_
    intro f _
    dsimp only
    omega

theorem framesLoop_ends : ∀ (fuel : Nat) (s : Str) (acc : List PythonFrame), s.length < fuel → framesLoop fuel s acc ≠ .abort
  | 0, s, acc, h => by omega
  | n + 1, s, acc, h => by
    rw [framesLoop]
    cases hp : parseFrame s with
    | abort => exact absurd hp (frame_not_abort s)
    | ub => rintro ⟨⟩
    | ok r =>
      obtain ⟨f, t⟩ := r
      rw [Out.bind_ok]
      cases f with
      | none => rintro ⟨⟩
      | some f =>
        have := parseFrame_post s _ hp f rfl
        exact framesLoop_ends n t _ (by dsimp only at this; omega)

/-- C56 for Python tracebacks: whatever the text is, reading it comes to an end (and no assertion fails). -/
theorem C56_python_ends (inp : Str) : parse inp ≠ .abort := by
  unfold parse
  have hs : Fine (start inp) := by
    unfold start
    refine (skipChar_fine inp (by decide)).bind fun a _ => ?_
    dsimp only
    cases (strstrLocation a.2 header).1 with
    | some t => exact .ok _
    | none =>
      dsimp only
      cases (strstrLocation inp c!"invalid syntax (").1 <;> exact .ok _
  obtain ⟨r, hr⟩ := hs
  rw [hr, Out.bind_ok]
  cases r with
  | none => rintro ⟨⟩
  | some s =>
    dsimp only
    have := framesLoop_ends (s.length + 1) s [] (by omega)
    cases hl : framesLoop (s.length + 1) s [] with
    | abort => exact absurd hl this
    | ub => rintro ⟨⟩
    | ok r =>
      rw [Out.bind_ok]
      obtain ⟨x, hx⟩ : Fine (if r.1 = [] then Out.ok none else do
          let (name, s) ← parseCharCspan r.2 c!":\n"
          match name with
          | none => .ok none
          | some name => .ok (some ((⟨some name, r.1⟩ : PythonTrace), s))) :=
        Fine.ite (fun _ => .ok _) fun _ => (parseCharCspan_fine _ _).bind fun a _ => by obtain ⟨a, b⟩ := a; cases a <;> exact .ok _
      intro hc
      exact absurd (hx.symm.trans hc) (by rintro ⟨⟩)

/-- C52 and C56 do not hold for a traceback that ends after its calls, where the exception should follow: the text after the
terminator is read. -/
theorem C52_not_truncated (pre : Str) (es : List Entry) (h : ∀ e ∈ es, e.WF) (hm : ∀ e ∈ es, e.marks = none)
    (hfirst : ∀ pre' rest', pre ++ header ++ es.flatMap Entry.text = pre' ++ header ++ rest' → pre.length ≤ pre'.length) :
    parse (pre ++ header ++ es.flatMap Entry.text) = .ub := by
  unfold parse
  rw [start_read pre _ hfirst, Out.bind_ok]
  dsimp only
  have key : ∀ fuel acc, (es.flatMap Entry.text).length < fuel → framesLoop fuel (es.flatMap Entry.text) acc = .ub := by
    clear hfirst
    induction es with
    | nil =>
      intro fuel acc hf
      obtain ⟨fuel, rfl⟩ : ∃ k, fuel = k + 1 := ⟨fuel - 1, by omega⟩
      rw [framesLoop, List.flatMap_nil, (C56_python_frame []).1 (by simp)]
      rfl
    | cons e es ih =>
      intro fuel acc hf
      obtain ⟨fuel, rfl⟩ : ∃ k, fuel = k + 1 := ⟨fuel - 1, by omega⟩
      have e1 : (e :: es).flatMap Entry.text = e.body ++ es.flatMap Entry.text := by
        rw [List.flatMap_cons, Entry.text, hm e (by simp), marksText, List.append_nil]
      rw [e1] at hf ⊢
      have hns : e.source = none → NotSource (es.flatMap Entry.text) := by
        intro _
        cases es with
        | nil => rfl
        | cons e' es =>
          rw [List.flatMap_cons, Entry.text, Entry.body]
          simp only [List.append_assoc]
          rfl
      have := step none (by rintro x ⟨⟩) e (h e (by simp)) _ hns
      rw [marksText, List.nil_append] at this
      rw [framesLoop, this, Out.bind_ok]
      dsimp only
      refine ih (fun e he => h e (by simp [he])) (fun e he => hm e (by simp [he])) fuel _ ?_
      rw [List.length_append] at hf
      have : 0 < e.body.length := by unfold Entry.body; simp
      omega
  rw [key _ _ (by omega)]
  rfl

example : parse c!"Traceback (most recent call last):\n  File \"a\", line 1, in f\n    x\n" = .ub := by decide +kernel

end Satyr.Text.Python
