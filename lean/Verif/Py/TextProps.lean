import Verif.Py.TextModel
import Verif.Text.RubyLines
import Verif.Text.JsLines
import Verif.Text.PythonLines
import Verif.Text.Java
import Verif.Text.KoopsRead
/-!
# Frames that Python prints can be read again (C127)
-/
namespace Satyr.Py.Text
open Satyr.CStr Satyr.Frames

/-! ## Numbers and paths -/

theorem dec32_eq {n : Nat} (h : n < 2 ^ 31) : dec32 n = natDec n := by
  unfold dec32 intDec
  rw [if_pos h, if_neg (by omega)]
  rfl

theorem anonymize_mem {p : Str} {c : Char} (h : c ∈ anonymizePath p) : c ∈ p ∨ c ∈ c!"/home/anonymized/" := by
  by_cases hp : ∃ user rest, '/' ∉ user ∧ p = c!"/home/" ++ user ++ '/' :: rest
  · obtain ⟨u, r, hu, rfl⟩ := hp
    rw [C31_replaces u r hu, List.mem_append] at h
    rcases h with h | h
    · exact .inr h
    · exact .inl (by simp [h])
  · rw [C31_keeps p hp] at h
    exact .inl h

theorem anonymize_head (p : Str) : (anonymizePath p).head? = p.head? := by
  by_cases hp : ∃ user rest, '/' ∉ user ∧ p = c!"/home/" ++ user ++ '/' :: rest
  · obtain ⟨u, r, hu, rfl⟩ := hp
    rw [C31_replaces u r hu]
    rfl
  · rw [C31_keeps p hp]

theorem anonymize_ne {p : Str} (h : p ≠ []) : anonymizePath p ≠ [] := by
  intro he
  have := anonymize_head p
  rw [he] at this
  cases p with
  | nil => exact h rfl
  | cons c p => cases this

theorem make_object {F : Type} {parse : Str → Out (Option (F × Str))} {text : Str} {f : F} :
    make parse text = .ok (.object f) ↔ ∃ t, parse text = .ok (some (f, t)) := by
  unfold make
  rw [bind_ok_iff]
  constructor
  · rintro ⟨r, h1, h2⟩
    cases r with
    | none => cases h2
    | some r => cases h2; exact ⟨r.2, h1⟩
  · rintro ⟨t, h⟩
    exact ⟨_, h, rfl⟩

/-! ## Ruby -/

/-- The name of the function begins like a level of blocks or of `rescue`. -/
def LevelName (n : Str) : Prop := ∃ r, n = c!"block in " ++ r ∨ n = c!"block (" ++ r ∨ n = c!"rescue in " ++ r

theorem quote_prefix {w n r : Str} (hw : '\'' ∉ w) (h : n ++ c!"'" = w ++ r) : ∃ s, n = w ++ s := by
  have : w <+: n ++ c!"'" := ⟨r, h.symm⟩
  rcases List.prefix_concat_iff.1 (by simpa using this) with h1 | h1
  · exact absurd (by rw [h1]; simp) hw
  · obtain ⟨s, hs⟩ := h1
    exact ⟨s, hs.symm⟩

theorem no_prefix {b : Bool} {n w : Str} {c : Char} (hw : '\'' ∉ c :: w) (hc : c ≠ '<') (h : ¬ ∃ r, n = (c :: w) ++ r) :
    ¬ ∃ u, special b n ++ c!"'" = (c :: w) ++ u := by
  rintro ⟨u, hu⟩
  cases b with
  | true =>
    have : '<' = c := by simpa [special, part] using congrArg (·.head?) hu
    exact hc this.symm
  | false => exact h (quote_prefix hw (by simpa [special, part] using hu))

open Satyr.Text.Ruby in
/-- C127: a Ruby frame that was read from a text is printed as a text that is read as the same frame. Missing: line 0 and lines or
levels above 2147483647, and texts that write the block level 0. -/
theorem C127_ruby_partial (text : Str) (f : RubyFrame) (h : rubyNew text = .ok (.object f)) (h1 : 0 < f.fileLine)
    (h2 : f.fileLine < 2 ^ 31) (h3 : f.blockLevel < 2 ^ 31) (h4 : f.blockLevel = 0 → ∀ n, f.functionName = some n → ¬ LevelName n) :
    rubyNew (rubyStr f) = .ok (.object f) := by
  obtain ⟨t, h⟩ := make_object.1 h
  refine make_object.2 ⟨[], ?_⟩
  rw [C53_exact_frame] at h ⊢
  obtain ⟨file, digits, line, s1, rescue, s2, block, s3, special', name, -, hb, hd, hr, hbl, hn, rfl⟩ := h
  dsimp only at h1 h2 h3 h4
  obtain ⟨n1, n2, n3, n4⟩ := hn
  have hsp : special' = false → peek name ≠ '<' := by
    rintro rfl
    rcases n4 with ⟨h, -⟩ | ⟨-, h, rfl⟩
    · cases h
    · cases name with
      | nil => exact absurd rfl n1
      | cons c n => exact h
  refine ⟨anonymizePath file, natDec line, line, (List.replicate rescue c!"rescue in ").flatten ++ (blockPart block ++ (special special' name ++ c!"'")),
    rescue, blockPart block ++ (special special' name ++ c!"'"), block, special special' name ++ c!"'", special', name, ?_, ?_, ?_, ?_, ?_, ?_, ?_⟩
  · unfold rubyStr
    have : line ≠ 0 := by omega
    simp [part, dec32_eq h2, this]
  · intro hm
    rcases anonymize_mem hm with h | h
    · exact hb h
    · revert h; decide
  · exact ⟨(natDec_spec line).2.1, (natDec_spec line).1, (natDec_spec line).2.2, by omega⟩
  · refine ⟨rfl, ?_⟩
    by_cases hz : block = 0
    · subst hz
      have hl := h4 rfl name rfl
      exact no_prefix (c := 'r') (w := c!"escue in ") (by decide) (by decide) (fun ⟨r, hr⟩ => hl ⟨r, .inr (.inr hr)⟩)
    · rintro ⟨u, hu⟩
      unfold blockPart at hu
      split at hu
      · simp at hu
      · rw [if_pos (by omega)] at hu
        simp at hu
  · by_cases hz : block = 0
    · subst hz
      have hl := h4 rfl name rfl
      exact .none _ (no_prefix (c := 'b') (w := c!"lock in ") (by decide) (by decide) (fun ⟨r, hr⟩ => hl ⟨r, .inl hr⟩))
        (no_prefix (c := 'b') (w := c!"lock (") (by decide) (by decide) (fun ⟨r, hr⟩ => hl ⟨r, .inr (.inl hr)⟩))
    · unfold blockPart
      split
      · next h => subst h; exact .one _
      · rw [if_pos (by omega), dec32_eq h3]
        exact .many _ _ _ ⟨(natDec_spec block).2.1, (natDec_spec block).1, (natDec_spec block).2.2, by omega⟩
  · refine ⟨n1, n2, n3, ?_⟩
    cases special' with
    | true => left; exact ⟨rfl, by simp [special, part]⟩
    | false =>
      right
      refine ⟨rfl, ?_, by simp [special, part]⟩
      have := hsp rfl
      cases name with
      | nil => exact absurd rfl n1
      | cons c n => exact this
  · rw [C31_idempotent]

example : rubyNew c!"/home/jo/a.rb:12:in `rescue in block (2 levels) in <main>'" =
    .ok (.object ⟨some c!"/home/anonymized/a.rb", 12, true, some c!"main", 2, 1⟩) := by decide +kernel
example : rubyStr ⟨some c!"/home/anonymized/a.rb", 12, true, some c!"main", 2, 1⟩ =
    c!"/home/anonymized/a.rb:12:in `rescue in block (2 levels) in <main>'" := by decide +kernel

/-- C127 is false for line 0: the line is not printed, and the text cannot be read. -/
theorem C127_not_ruby_line : ∃ f, rubyNew c!"a.rb:0:in `f'" = .ok (.object f) ∧ rubyNew (rubyStr f) = .ok .valueError :=
  ⟨_, rfl, by decide +kernel⟩

/-- C127 is false for large lines: they are printed as negative numbers. -/
theorem C127_not_ruby_large : ∃ f, rubyNew c!"a.rb:2147483648:in `f'" = .ok (.object f) ∧ rubyNew (rubyStr f) = .ok .valueError :=
  ⟨_, rfl, by decide +kernel⟩

/-- C127 is false if the text has the block level 0: another frame is read from the printed text. -/
theorem C127_not_ruby_block : ∃ f g, rubyNew c!"a.rb:1:in `block (0 levels) in rescue in f'" = .ok (.object f) ∧
    rubyNew (rubyStr f) = .ok (.object g) ∧ f ≠ g :=
  ⟨⟨some c!"a.rb", 1, false, some c!"rescue in f", 0, 0⟩, ⟨some c!"a.rb", 1, false, some c!"f", 0, 1⟩, by decide +kernel, by decide +kernel,
    by decide +kernel⟩

/-! ## JavaScript -/

theorem num_dec {n : Nat} (h : n < 2 ^ 31) : Satyr.Text.Js.Num (dec32 n) n := by
  rw [dec32_eq h]
  exact ⟨(natDec_spec n).2.1, (natDec_spec n).1, (natDec_spec n).2.2, by omega⟩

theorem dec_line {n : Nat} (h : n < 2 ^ 31) : '\n' ∉ dec32 n := by
  rw [dec32_eq h]
  intro hm
  have := (natDec_spec n).1 _ hm
  revert this
  decide

open Satyr.Text.Js in
/-- C127: a JavaScript frame that was read from a line is printed as a line that is read as the same frame. Missing: line and column
numbers above 2147483647. -/
theorem C127_js_partial (text : Str) (hl : '\n' ∉ text) (f : JsFrame) (h : jsNew text = .ok (.object f)) (h1 : f.fileLine < 2 ^ 31)
    (h2 : f.lineColumn < 2 ^ 31) : jsNew (jsStr f) = .ok (.object f) := by
  obtain ⟨t, h⟩ := make_object.1 h
  refine make_object.2 ⟨[], ?_⟩
  obtain ⟨-, h⟩ := (C51_lines text hl f t).1 h
  have nf : ∀ {file : Str}, '\n' ∉ file → '\n' ∉ anonymizePath file := by
    intro file hf hm
    rcases anonymize_mem hm with h | h
    · exact hf h
    · revert h; decide
  cases h with
  | plain ind gap pos blanks file line column b1 b2 b3 hp hh =>
    obtain ⟨d1, d2, rfl, he, -, -⟩ := hp
    have hf : '\n' ∉ file := fun hm => hl (by simp [hm])
    have e : jsStr ⟨some (anonymizePath file), line, column, none⟩ =
        [] ++ c!"at " ++ [] ++ (anonymizePath file ++ ':' :: dec32 line ++ ':' :: dec32 column) ++ [] := by
      simp [jsStr, part]
    rw [e, C51_lines _ (by simp [nf hf, dec_line h1, dec_line h2])]
    refine ⟨rfl, ?_⟩
    have := FrameLine.plain [] [] (anonymizePath file ++ ':' :: dec32 line ++ ':' :: dec32 column) [] (anonymizePath file) line column
      (by simp [Blanks]) (by simp [Blanks]) (by simp [Blanks]) ⟨_, _, rfl, anonymize_ne he, num_dec h1, num_dec h2⟩
      (by rw [anonymize_head]; exact hh)
    rwa [C31_idempotent] at this
  | named ind gap name more pos blanks file line column b1 b2 b3 hp hne hs hm =>
    obtain ⟨d1, d2, rfl, he, -, -⟩ := hp
    have hf : '\n' ∉ file := fun hm => hl (by simp [hm])
    have hn : '\n' ∉ name := fun hm => hl (by simp [hm])
    have e : jsStr ⟨some (anonymizePath file), line, column, some name⟩ =
        [] ++ c!"at " ++ [] ++ name ++ c!" " ++ [] ++ c!"(" ++ (anonymizePath file ++ ':' :: dec32 line ++ ':' :: dec32 column) ++ c!")" ++ [] := by
      simp [jsStr, part]
    rw [e, C51_lines _ (by simp [nf hf, hn, dec_line h1, dec_line h2])]
    refine ⟨rfl, ?_⟩
    have := FrameLine.named [] [] name [] (anonymizePath file ++ ':' :: dec32 line ++ ':' :: dec32 column) [] (anonymizePath file) line column
      (by simp [Blanks]) (by simp [Blanks]) (by simp [Blanks]) ⟨_, _, rfl, anonymize_ne he, num_dec h1, num_dec h2⟩ hne hs (by simp)
    rwa [C31_idempotent] at this

example : jsNew c!"    at Object.f [as g] (/home/jo/a b.js:3:14)" = .ok (.object ⟨some c!"/home/anonymized/a b.js", 3, 14, some c!"Object.f"⟩) := by
  decide +kernel
example : jsStr ⟨some c!"/home/anonymized/a b.js", 3, 14, some c!"Object.f"⟩ = c!"at Object.f (/home/anonymized/a b.js:3:14)" := by decide +kernel

/-- C127 is false for large columns. -/
theorem C127_not_js_large : ∃ f, jsNew c!"at f (a.js:1:2147483648)" = .ok (.object f) ∧ jsNew (jsStr f) = .ok .valueError :=
  ⟨_, rfl, by decide +kernel⟩

/-! ## Java -/

open Satyr.Text.Java in
/-- C127: a Java call with a file name, or a native one without a line, is printed as a text that is read as the same frame without
its class path. -/
theorem C127_java_partial (f : JavaFrame) (h : Clean f) (n : Str) (hn : f.name = some n) (h1 : f.fileLine < 2 ^ 31)
    (h2 : f.fileName ≠ none ∨ (f.isNative = true ∧ f.fileLine = 0)) (h3 : ∀ p, f.fileName = some p → NotHome p) :
    javaNew (javaStr f) = .ok (.object { f with classPath := none }) := by
  refine make_object.2 ⟨[], ?_⟩
  obtain ⟨name, file, line, path, native, exc, msg⟩ := f
  have hc : Clean ⟨name, file, line, none, native, exc, msg⟩ :=
    ⟨h.method, h.message, h.name, h.native, h.source, h.line, fun p hp => nomatch hp⟩
  have hw := asCall_wf _ hc
  have hf := asCall_frame _ hc
  have e1 : exc = false := h.method
  have e2 : name = some n := hn
  subst e1 e2
  have e : javaStr ⟨some n, file, line, path, native, false, msg⟩ =
      c!"\t" ++ (⟨(asCall ⟨some n, file, line, none, native, false, msg⟩).name, (asCall ⟨some n, file, line, none, native, false, msg⟩).source,
        (asCall ⟨some n, file, line, none, native, false, msg⟩).line, .absent⟩ : Call).text ++ [] := by
    dsimp only at h1
    cases native with
    | true =>
      have hfn : file = none := h.native rfl
      subst hfn
      have hl : line = 0 := by simpa using h2
      subst hl
      simp [javaStr, Call.text, Call.lineText, part, asCall, Source.text, Url.text]
    | false =>
      cases file with
      | none => simp at h2
      | some g =>
        unfold javaStr Call.text Call.lineText
        rw [dec32_eq h1]
        by_cases hz : line = 0
        · subst hz; simp [part, asCall, Source.text, Url.text]
        · simp [part, asCall, Source.text, Url.text, hz]
  have hw' : (⟨(asCall ⟨some n, file, line, none, native, false, msg⟩).name, (asCall ⟨some n, file, line, none, native, false, msg⟩).source,
      (asCall ⟨some n, file, line, none, native, false, msg⟩).line, .absent⟩ : Call).WF :=
    ⟨hw.blank, hw.paren, hw.newline, hw.source, hw.line, trivial⟩
  rw [e, C70_frame _ hw' c!"\t" [] (by decide) (Or.inl rfl)]
  have e3 : (⟨(asCall ⟨some n, file, line, none, native, false, msg⟩).name, (asCall ⟨some n, file, line, none, native, false, msg⟩).source,
      (asCall ⟨some n, file, line, none, native, false, msg⟩).line, .absent⟩ : Call).frame =
        (asCall ⟨some n, file, line, none, native, false, msg⟩).frame := rfl
  rw [e3, hf]
  have e4 : file.map anonymizePath = file := by
    cases file with
    | none => rfl
    | some g => rw [Option.map_some, C31_keeps g (h3 g rfl)]
  dsimp only
  rw [e4]
  rfl

open Satyr.Text.Java in
example : Clean { name := some c!"A.f", fileName := some c!"A.java", fileLine := 12, classPath := some c!"/a.jar" } := by
  constructor <;> simp <;> decide
example : javaStr { name := some c!"A.f", fileName := some c!"A.java", fileLine := 12, classPath := some c!"/a.jar" } = c!"\tat A.f(A.java:12)" := by
  decide +kernel

/-- C127 is false for calls without a source: the parenthesis gets into the name. -/
theorem C127_not_java_unknown : javaNew c!"\tat A.f(Unknown Source)" = .ok (.object { name := some c!"A.f" }) ∧
    javaNew (javaStr { name := some c!"A.f" }) = .ok (.object { name := some c!"A.f)" }) := by decide +kernel

/-- C127 is false for exceptions. -/
theorem C127_not_java_exception : javaNew (javaStr { name := some c!"E", message := some c!"m", isException := true }) = .ok .valueError := by
  decide +kernel

/-! ## Python -/

/-- C127 is false for Python: no frame is printed as a text that can be read. -/
theorem C127_not_python (f g : PythonFrame) : pythonNew (pythonStr f) ≠ .ok (.object g) := by
  intro hp
  unfold pythonNew at hp
  obtain ⟨⟨r, t⟩, h1, h2⟩ := bind_ok_iff.1 hp
  cases r with
  | none => cases h2
  | some k =>
    cases h2
    obtain ⟨marks, file, sp, fileName, digits, line, s1, special', functionName, s2, s3, source, h0, -⟩ :=
      (Satyr.Text.Python.C52_frame _ _ _).1 h1
    have hs : pythonStr f = [] ∨ (∃ c r, pythonStr f = c :: r ∧ c ∉ c!" ^~\n") ∨ ∃ r, pythonStr f = c!"\n    " ++ r := by
      unfold pythonStr
      cases f.fileName with
      | some n => right; left; exact ⟨'F', _, rfl, by decide⟩
      | none =>
        by_cases hl : f.fileLine = 0
        · cases f.functionName with
          | some n => right; left; exact ⟨',', c!" in " ++ (special f.specialFunction n ++ _), by simp [part, hl]; rfl, by decide⟩
          | none =>
            cases f.lineContents with
            | none => left; simp [part, hl]
            | some n => right; right; exact ⟨n, by simp [part, hl]⟩
        · right; left
          exact ⟨',', _, by simp [part, hl]; rfl, by decide⟩
    rcases h0 with h0 | ⟨hm, h0⟩
    · rcases hs with hs | ⟨c, r, hs, hc⟩ | ⟨r, hs⟩
      · rw [hs] at h0; simp at h0
      · rw [hs] at h0
        simp at h0
        rw [h0.1] at hc
        exact hc (by decide)
      · rw [hs] at h0; simp at h0
    · cases marks with
      | nil =>
        rcases hs with hs | ⟨c, r, hs, hc⟩ | ⟨r, hs⟩
        · rw [hs] at h0; simp at h0
        · rw [hs] at h0
          simp at h0
          rw [h0.1] at hc
          exact hc (by decide)
        · rw [hs] at h0; simp at h0
      | cons m ms =>
        have hm' := hm m (by simp)
        rcases hs with hs | ⟨c, r, hs, hc⟩ | ⟨r, hs⟩
        · rw [hs] at h0; simp at h0
        · rw [hs] at h0
          simp at h0
          rw [h0.1] at hc
          revert hm' hc
          simp
          tauto
        · rw [hs] at h0
          simp at h0
          rw [← h0.1] at hm'
          revert hm'
          decide

example : pythonNew c!"  File \"a.py\", line 12, in f\n    g()\n" = .ok (.object ⟨false, some c!"a.py", 12, false, some c!"f", some c!"g()"⟩) := by
  decide +kernel
example : pythonStr ⟨false, some c!"a.py", 12, false, some c!"f", some c!"g()"⟩ = c!"File \"a.py\", 12, in f\n    g()" := by decide +kernel

/-! ## Kernel oopses -/

open Satyr.Text.Koops in
/-- The frames that are printed as newer kernels do it: without addresses, with an offset and a length. -/
structure Bare (f : KoopsFrame) (n : Str) : Prop where
  address : f.address = 0
  stack : f.specialStack = none
  name : f.functionName = some n ∧ FunctionName n ∧ peek n ∉ c!"[(?" ∧ ∀ r, n ≠ c!"0x" ++ r
  offset : 0 < f.functionOffset ∧ f.functionOffset < 2 ^ 64
  length : 0 < f.functionLength ∧ f.functionLength < 2 ^ 64
  module : ∀ m, f.moduleName = some m → ModuleName m
  no_from : f.fromAddress = 0 ∧ f.fromFunctionName = none ∧ f.fromFunctionOffset = 0 ∧ f.fromFunctionLength = 0 ∧ f.fromModuleName = none

open Satyr.Text.Koops in
/-- C127: a frame of a kernel oops without addresses is printed as a text that is read as the same frame. -/
theorem C127_koops_partial (f : KoopsFrame) (n : Str) (h : Bare f n) : koopsNew (koopsStr f) = .ok (some f) := by
  obtain ⟨h1, h2, ⟨h3, h4, h5, h6⟩, ⟨h7, h8⟩, ⟨h9, h10⟩, h11, h12, h13, h14, h15, h16⟩ := h
  obtain ⟨addr, rel, name, off, len, mod, fa, fn, fo, fl, fm, st⟩ := f
  dsimp only at *
  subst h1 h2 h3 h12 h13 h14 h15 h16
  have hx : ∀ k : Nat, k < 2 ^ 64 → OptHex k (c!"0x" ++ natHex k) := fun k hk =>
    .hex ⟨(natHex_spec k).2.1, (natHex_spec k).1, (natHex_spec k).2.2, hk⟩
  have hb : ∃ w mt, Blank w ∧ ModuleText mod mt ∧ w ++ mt = modulePart mod := by
    cases mod with
    | none => exact ⟨[], [], by simp [Blank], .none, rfl⟩
    | some m => exact ⟨c!" ", _, by simp [Blank], .some (h11 m rfl), rfl⟩
  obtain ⟨w, mt, hw, hm, he⟩ := hb
  have hq : ∃ q w2, Question rel q ∧ Blank w2 ∧ q ++ w2 = part (!rel) c!"? " := by
    cases rel with
    | true => exact ⟨[], [], .reliable, by simp [Blank], rfl⟩
    | false => exact ⟨_, c!" ", .unreliable, by simp [Blank], rfl⟩
  obtain ⟨q, w2, hq, hw2, hqe⟩ := hq
  have hl := KernelLine.x86 (w₀ := []) (w₁ := []) (w₃ := []) (by simp [Blank]) OptAddress.none (by simp [Blank]) hq hw2
    (FunctionBody.named (w₂ := []) h4 (hx off h8) (hx len h10) hw hm (by simp [Blank]))
    (by intro k hk; cases hk; exact ⟨h5, h6⟩) (by simp [Blank]) (by simp)
  have hr := C74_read_partial hl (e := []) (rest := []) (Or.inr ⟨rfl, rfl⟩)
  have e : koopsStr ⟨0, rel, some n, off, len, mod, 0, none, 0, 0, none, none⟩ =
      [] ++ ([] ++ ([] ++ (q ++ (w2 ++ ((n ++ (c!"+" ++ ((c!"0x" ++ natHex off) ++ (c!"/" ++ ((c!"0x" ++ natHex len) ++ (w ++ (mt ++ []))))))) ++ []))))) ++ ([] ++ []) := by
    unfold koopsStr
    have h1 : off ≠ 0 := by omega
    have h2 : len ≠ 0 := by omega
    dsimp only
    rw [← he, ← hqe]
    simp [part, h1, h2, modulePart]
  unfold koopsNew
  rw [e, hr, Out.bind_ok]
  rfl

example : Bare { reliable := false, functionName := some c!"f", functionOffset := 16, functionLength := 32, moduleName := some c!"m" } c!"f" := by
  constructor <;> simp <;> decide
example : koopsStr { reliable := false, functionName := some c!"f", functionOffset := 16, functionLength := 32, moduleName := some c!"m" } =
    c!"? f+0x10/0x20 [m]" := by decide +kernel

/-- C127 is false for kernel oopses with addresses: the address is printed in a form that is not read. -/
theorem C127_not_koops_address : ∃ f, koopsNew c!" [<ffffffff8105d660>] f+0x70/0xa0" = .ok (some f) ∧ koopsNew (koopsStr f) ≠ .ok (some f) :=
  ⟨{ address := 0xffffffff8105d660, reliable := true, functionName := some c!"f", functionOffset := 0x70, functionLength := 0xa0 },
    by decide +kernel, by decide +kernel⟩

/-- C127 is false for the first instruction of a function: the offset 0 is not printed. -/
theorem C127_not_koops_zero : koopsNew c!"f+0x0/0xa0" = .ok (some { reliable := true, functionName := some c!"f", functionLength := 0xa0 }) ∧
    koopsNew (koopsStr { reliable := true, functionName := some c!"f", functionLength := 0xa0 }) = .ok none := by decide +kernel

/-- C127 is false for texts that are not read as frames of kernel oopses: there is no exception, and printing the object dereferences
`NULL`. -/
theorem C127_not_koops_error : ∃ o, koopsNew c!"no frame" = .ok o ∧ koopsObjectStr o = .ub := ⟨none, by decide +kernel, rfl⟩

end Satyr.Py.Text
