import Verif.Text.JsLoc
import Mathlib.Data.List.TakeWhile
/-!
# JavaScript stack traces with any function names and messages (C69)
-/
namespace Satyr.Text.Js
open Satyr.CStr Satyr.Frames

/-- A frame that V8 can print on one line, with its file name: the function name may have several words (`new Foo`, `f [as g]`), if
there is no parenthesis after the first word. -/
structure Worded (f : JsFrame) (file : Str) : Prop where
  fileName : f.fileName = some file
  nonempty : file ≠ []
  newline : '\n' ∉ file
  nul : NoNul file
  line : f.fileLine < 2 ^ 32
  column : f.lineColumn < 2 ^ 32
  noName : f.functionName = none → file.head? ≠ some ' '
  name : ∀ n, f.functionName = some n → n ≠ [] ∧ n.head? ≠ some ' ' ∧ '\n' ∉ n ∧ NoNul n ∧ '(' ∉ n.dropWhile (· ≠ ' ')

/-- What is read of it: the first word of the function name, and the file name without the name of a user. -/
def firstWord (f : JsFrame) (file : Str) : JsFrame :=
  { f with fileName := some (anonymizePath file), functionName := f.functionName.map fun n => n.takeWhile (· ≠ ' ') }

theorem num_natDec {n : Nat} (h : n < 2 ^ 32) : Num (natDec n) n :=
  ⟨(natDec_spec n).2.1, (natDec_spec n).1, (natDec_spec n).2.2, h⟩

theorem natDec_not {n : Nat} {c : Char} (h : IsDec c = false) : c ∉ natDec n := fun hm => by
  rw [(natDec_spec n).1 c hm] at h
  cases h

theorem worded_line {f : JsFrame} {file : Str} (h : Worded f file) : ∃ text, printFrame f = .ok text ∧ '\n' ∉ text ∧ NoNul text ∧
    FrameLine (c!"    " ++ text) (firstWord f file) := by
  obtain ⟨fileName, line, column, name⟩ := f
  obtain ⟨hf, hne, hnl, hz, hl, hc, hnn, hname⟩ := h
  dsimp only at hf hl hc hnn hname
  subst hf
  have hpos : PosLine (file ++ ':' :: natDec line ++ ':' :: natDec column) file line column :=
    ⟨_, _, rfl, hne, num_natDec hl, num_natDec hc⟩
  have p1 : '\n' ∉ file ++ ':' :: natDec line ++ ':' :: natDec column := by
    simp [hnl, natDec_not (n := line) (c := '\n') (by decide), natDec_not (n := column) (c := '\n') (by decide)]
  have p2 : NoNul (file ++ ':' :: natDec line ++ ':' :: natDec column) := by
    unfold NoNul at hz ⊢
    simp [hz, natDec_not (n := line) (c := '\x00') (by decide), natDec_not (n := column) (c := '\x00') (by decide)]
  generalize hP : file ++ ':' :: natDec line ++ ':' :: natDec column = P at hpos p1 p2
  cases name with
  | none =>
    refine ⟨c!"at " ++ P, by rw [← hP]; rfl, by simp [p1], by unfold NoNul at *; simp [p2], ?_⟩
    have := FrameLine.plain c!"    " [] P [] file line column (by unfold Blanks; decide) (by unfold Blanks; decide) (by unfold Blanks; decide) hpos
      (hnn rfl)
    simp only [List.append_nil, List.append_assoc] at this
    exact this
  | some n =>
    obtain ⟨h1, h2, h3, h4, h5⟩ := hname n rfl
    refine ⟨c!"at " ++ (n ++ c!" (" ++ P ++ c!")"), by rw [← hP]; rfl, by simp [p1, h3], by unfold NoNul at *; simp [p2, h4], ?_⟩
    have hw : n.takeWhile (· ≠ ' ') ≠ [] := by
      cases n with
      | nil => exact absurd rfl h1
      | cons c n => rw [List.takeWhile_cons, if_pos (by simpa using h2)]; simp
    have hb : ' ' ∉ n.takeWhile (· ≠ ' ') := fun hm => by simpa using List.mem_takeWhile_imp hm
    have e := List.takeWhile_append_dropWhile (p := fun c => decide (c ≠ ' ')) (l := n)
    have go : ∀ more, n ++ c!" (" = n.takeWhile (· ≠ ' ') ++ c!" " ++ more ++ c!"(" → '(' ∉ more →
        FrameLine (c!"    " ++ (c!"at " ++ (n ++ c!" (" ++ P ++ c!")"))) (firstWord ⟨some file, line, column, some n⟩ file) := by
      intro more hm h6
      have := FrameLine.named c!"    " [] (n.takeWhile (· ≠ ' ')) more P [] file line column (by unfold Blanks; decide) (by unfold Blanks; decide)
        (by unfold Blanks; decide) hpos hw hb h6
      rw [hm]
      simp only [List.append_nil, List.append_assoc] at this ⊢
      exact this
    cases hd : n.dropWhile (· ≠ ' ') with
    | nil =>
      rw [hd, List.append_nil] at e
      exact go [] (by rw [e]; simp) (by simp)
    | cons c r =>
      have hc : c = ' ' := by
        have := List.head?_dropWhile_not (fun c => decide (c ≠ ' ')) n
        rw [hd] at this
        simpa using this
      subst hc
      rw [hd] at e h5
      refine go (r ++ c!" ") ?_ (by simpa using h5)
      conv_lhs => rw [← e]
      simp

theorem trace_lines (name message : Str) : ∀ texts : List Str,
    traceText name message texts = joinLines (name ++ c!": " ++ message) (texts.map (c!"    " ++ ·) ++ [[]]) := by
  intro texts
  unfold traceText joinLines
  congr 1
  induction texts with
  | nil => rfl
  | cons t ts ih =>
    rw [List.map_cons, List.cons_append, List.flatMap_cons, List.flatMap_cons, ← ih]
    simp

theorem frames_last {α : Type} {l : α → Str} {g : α → JsFrame} : ∀ fs : List α, (∀ x ∈ fs, FrameLine (l x) (g x)) → Frames (fs.map l ++ [[]]) (fs.map g)
  | [], _ => .last
  | [x], h => .cons (h x (by simp)) .last
  | x :: y :: fs, h => .cons (h x (by simp)) (frames_last (y :: fs) fun z hz => h z (List.mem_cons_of_mem _ hz))

/-- C69: every stack trace printed by V8 with a message of one line and function names of any number of words is read completely; of each
function name, the first word is kept. -/
theorem C69_names_partial (name message : Str) (fs : List (JsFrame × Str × Str)) (hn : name ≠ []) (hn1 : ':' ∉ name) (hn2 : '\n' ∉ name)
    (hn3 : NoNul name) (hm : '\n' ∉ message) (hm2 : NoNul message) (h : ∀ x ∈ fs, Worded x.1 x.2.1 ∧ printFrame x.1 = .ok x.2.2) :
    parseText (traceText name message (fs.map (·.2.2))) = .ok (.inl ⟨some name, fs.map fun x => firstWord x.1 x.2.1, 1⟩) := by
  have hx : ∀ x ∈ fs, '\n' ∉ x.2.2 ∧ NoNul x.2.2 ∧ FrameLine (c!"    " ++ x.2.2) (firstWord x.1 x.2.1) := fun x hx => by
    obtain ⟨text, h1, h2⟩ := worded_line (h x hx).1
    rw [(h x hx).2] at h1
    cases h1
    exact h2
  rw [trace_lines, List.map_map]
  refine (C112_js_read _ _ ?_ ?_ _).2 ⟨name, _, ⟨message, rfl, hn, hn1⟩, frames_last fs fun x hx' => (hx x hx').2.2, rfl⟩
  · intro x hx'
    simp only [List.mem_cons, List.mem_append, List.mem_map, List.not_mem_nil, or_false] at hx'
    rcases hx' with rfl | ⟨y, hy, rfl⟩ | rfl
    · simp [hn2, hm]
    · simp [(hx y hy).1]
    · simp
  · unfold NoNul at *
    unfold joinLines
    simp only [List.mem_append, List.mem_flatMap, List.mem_cons, List.mem_map, List.not_mem_nil, not_or, not_exists, not_and, or_false]
    refine ⟨⟨⟨hn3, by decide⟩, hm2⟩, ?_⟩
    rintro x (⟨y, hy, rfl⟩ | rfl)
    · exact ⟨by decide, by simp [(hx y hy).2.1]⟩
    · exact ⟨by decide, by simp⟩

/-- The full claim is false: no stack trace of an exception without a message is read (V8 prints no colon in this case), whatever its
frames are. -/
theorem C69_not_empty_message (name : Str) (ls : List Str) (hl : ∀ x ∈ name :: ls, '\n' ∉ x) (hn : NoNul (joinLines name ls)) (hc : ':' ∉ name) :
    ∀ t, parseText (joinLines name ls) ≠ .ok (.inl t) := by
  intro t ht
  obtain ⟨n, fs, ⟨message, rfl, -, -⟩, -, -⟩ := (C112_js_read _ _ hl hn t).1 ht
  exact hc (by simp)

/-- It is false for every message of several lines of which one looks like no frame. -/
theorem C69_not_lines (l0 l : Str) (before after : List Str) (hl : ∀ x ∈ l0 :: (before ++ l :: after), '\n' ∉ x)
    (hn : NoNul (joinLines l0 (before ++ l :: after))) (h : ¬ IsFrame l) (hne : l ≠ []) :
    ∀ t, parseText (joinLines l0 (before ++ l :: after)) ≠ .ok (.inl t) := by
  intro t ht
  obtain ⟨n, fs, -, hf, -⟩ := (C112_js_read _ _ hl hn t).1 ht
  rcases hf.all before.length l (by simp) with hf | ⟨rfl, -⟩
  · exact h hf
  · exact hne rfl

/-- It is false for function names of several words. -/
theorem C69_not_new : ∃ text, printFrame ⟨some c!"a.js", 1, 2, some c!"new Foo"⟩ = .ok text ∧
    parseText (traceText c!"Error" c!"m" [text]) = .ok (.inl ⟨some c!"Error", [⟨some c!"a.js", 1, 2, some c!"new"⟩], 1⟩) :=
  ⟨c!"at new Foo (a.js:1:2)", by decide +kernel, by decide +kernel⟩

example : parseText (traceText c!"Error" c!"m" [c!"at new Foo (/home/jo/a.js:1:2)", c!"at b.js:3:4"]) =
    .ok (.inl ⟨some c!"Error", [⟨some c!"/home/anonymized/a.js", 1, 2, some c!"new"⟩, ⟨some c!"b.js", 3, 4, none⟩], 1⟩) :=
  C69_names_partial c!"Error" c!"m" [(⟨some c!"/home/jo/a.js", 1, 2, some c!"new Foo"⟩, c!"/home/jo/a.js", c!"at new Foo (/home/jo/a.js:1:2)"),
    (⟨some c!"b.js", 3, 4, none⟩, c!"b.js", c!"at b.js:3:4")] (by decide) (by decide) (by decide) (by unfold NoNul; decide) (by decide)
    (by unfold NoNul; decide) (by
      rintro x (_ | ⟨_, _ | ⟨_, hx⟩⟩)
      · exact ⟨⟨rfl, by decide, by decide, by unfold NoNul; decide, by decide, by decide, by decide, by
          rintro n ⟨⟩; exact ⟨by decide, by decide, by decide, by unfold NoNul; decide, by decide⟩⟩, by decide +kernel⟩
      · exact ⟨⟨rfl, by decide, by decide, by unfold NoNul; decide, by decide, by decide, by decide, by rintro n ⟨⟩⟩, by decide +kernel⟩
      · cases hx)

/-- What V8 prints for `throw new Error()`. -/
example : ∀ t, parseText (joinLines c!"Error" [c!"    at f (a.js:1:2)"]) ≠ .ok (.inl t) :=
  C69_not_empty_message _ _ (by decide) (by unfold NoNul; decide) (by decide)

/-- A message of two lines. -/
example : ¬ IsFrame c!"second line" ∧ (parseText c!"Error: first line\nsecond line\n    at f (a.js:1:2)\n").bind (fun r => .ok r.isLeft) = .ok false := by
  refine ⟨?_, by decide +kernel⟩
  rintro ⟨f, hf⟩
  have := (C51_lines c!"second line" (by decide) f []).2 ⟨rfl, hf⟩
  revert this
  rw [show parseFrame c!"second line" = .ok none by decide +kernel]
  intro h
  cases h

end Satyr.Text.Js
