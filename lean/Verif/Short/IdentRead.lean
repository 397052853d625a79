import Verif.Short.Ident
import Verif.Text.Java
/-!
# C79 for JavaScript and Java: the text can be read back, so it identifies the frames
-/
namespace Satyr.Short
open Satyr.CStr Satyr.Frames
open Satyr.Text.Java (NotHome)

/-- A JavaScript frame whose text can be read back. -/
def JsPlain (f : JsFrame) : Prop := ∃ file, Text.Js.Clean f file ∧ NotHome file

/-- C79: the text of a JavaScript frame identifies the frame. -/
theorem C79_js_frame (f g : JsFrame) (hf : JsPlain f) (hg : JsPlain g) (e : Text.Js.printFrame f = Text.Js.printFrame g) : f = g := by
  obtain ⟨p, h1, h2⟩ := hf
  obtain ⟨q, h3, h4⟩ := hg
  obtain ⟨x, x1, x2⟩ := Text.Js.C51_round_trip_partial f p [] [] h1 (by simp) (.inl rfl) h2
  obtain ⟨y, y1, y2⟩ := Text.Js.C51_round_trip_partial g q [] [] h3 (by simp) (.inl rfl) h4
  rw [x1, y1] at e
  cases e
  rw [x2] at y2
  cases y2
  rfl

theorem jsFrame_line {f : JsFrame} (h : JsPlain f) : '\n' ∉ textOf (Text.Js.printFrame f) := by
  obtain ⟨p, ⟨h1, -, h3, -, -, -, h7⟩, -⟩ := h
  unfold Text.Js.printFrame
  rw [h1]
  have hd : ∀ n, '\n' ∉ natDec n := fun n => natDec_dec (by decide)
  cases hn : f.functionName with
  | none => simp [textOf, h3, hd]
  | some n => simp [textOf, h3, hd, (h7 n hn).2.2]

/-- C79: JavaScript stack traces with the same short text have the same frames. -/
theorem C79_js (t u : JsTrace) (ht : ∀ f ∈ t.frames, JsPlain f) (hu : ∀ f ∈ u.frames, JsPlain f) (e : jsText t 0 = jsText u 0) :
    t.frames = u.frames := by
  have named : ∀ f, JsPlain f → f.fileName ≠ none := fun f ⟨p, h, _⟩ => by rw [h.fileName]; simp
  rw [C76_js t 0 fun f hf => named f (ht f hf), C76_js u 0 fun f hf => named f (hu f hf)] at e
  have e' := Option.some.inj (Out.ok.inj e)
  have hp : ∀ n, printed 0 n = n := fun n => rfl
  rw [hp, hp, List.take_length, List.take_length] at e'
  have := shown_inj (shown := id) (fun f => jsFrame_line) (fun f g hf hg e => C79_js_frame f g hf hg (by
    obtain ⟨p, h, -⟩ := hf
    obtain ⟨q, h', -⟩ := hg
    unfold Text.Js.printFrame at *
    rw [h.fileName, h'.fileName] at *
    exact congrArg Out.ok e)) ht hu e'
  simpa using this

example : JsPlain ⟨some c!"/srv/a (b):7:x.js", 357, 29, some c!"Object.<anonymous>"⟩ :=
  ⟨_, ⟨rfl, by decide, by decide, by decide, by decide, nofun, by rintro n ⟨⟩; decide⟩, by
    rintro ⟨user, rest, -, h⟩; simp at h⟩

/-- A Java frame whose text can be read back, or an exception with a name and a message on one line. -/
inductive JavaPlain (f : JavaFrame) : Prop
  | method (h : Text.Java.Clean f) (file : ∀ p, f.fileName = some p → NotHome p) (path : ∀ p, f.classPath = some p → NotHome p)
  | exception (name : Str) (message : Option Str) (hf : f = { name := some name, message, isException := true })
      (h1 : ':' ∉ name) (h2 : '\n' ∉ name) (h3 : '\t' ∉ name) (h4 : ∀ m, message = some m → '\n' ∉ m)

theorem printFrame_method {f : JavaFrame} (h : f.isException = false) : ∃ x, Text.Java.printFrame f = '\t' :: x := by
  unfold Text.Java.printFrame
  rw [h, if_neg (by simp)]
  exact ⟨_, rfl⟩

theorem printFrame_exception (name : Str) (m : Option Str) : Text.Java.printFrame { name := some name, message := m, isException := true } =
    name ++ match m with | none => [] | some m => c!": " ++ m := by
  unfold Text.Java.printFrame
  rw [if_pos rfl]
  rfl

/-- C79: the text of a Java frame identifies the frame. -/
theorem C79_java_frame (f g : JavaFrame) (hf : JavaPlain f) (hg : JavaPlain g) (e : Text.Java.printFrame f = Text.Java.printFrame g) : f = g := by
  have no : ∀ (n : Str) (m : Option Str) (x : Str), '\t' ∉ n → (n ++ match m with | none => [] | some m => c!": " ++ m) ≠ '\t' :: x := by
    intro n m x hn e
    cases n with
    | nil => cases m <;> cases e
    | cons c n => exact hn (by rw [(List.cons.inj e).1]; simp)
  cases hf with
  | method h1 h2 h3 =>
    cases hg with
    | method h4 h5 h6 =>
      have x := Text.Java.C54_round_trip_partial f h1 h2 h3 [] (.inl rfl)
      have y := Text.Java.C54_round_trip_partial g h4 h5 h6 [] (.inl rfl)
      rw [e, y] at x
      cases x
      rfl
    | exception n m hg k1 k2 k3 k4 =>
      subst hg
      obtain ⟨x, hx⟩ := printFrame_method h1.method
      rw [hx, printFrame_exception] at e
      exact absurd e.symm (no n m x k3)
  | exception n m hf k1 k2 k3 k4 =>
    subst hf
    rw [printFrame_exception] at e
    cases hg with
    | method h4 h5 h6 =>
      obtain ⟨x, hx⟩ := printFrame_method h4.method
      rw [hx] at e
      exact absurd e (no n m x k3)
    | exception n' m' hg j1 j2 j3 j4 =>
      subst hg
      rw [printFrame_exception] at e
      cases m <;> cases m'
      · rw [List.append_nil, List.append_nil] at e; rw [e]
      · rw [List.append_nil] at e; exact absurd e.symm (no_cut k1)
      · dsimp only at e; rw [List.append_nil] at e; exact absurd e (no_cut j1)
      · next m m' =>
        obtain ⟨e1, e2⟩ := cut (b := c!" " ++ m) (b' := c!" " ++ m') k1 j1 e
        rw [e1, List.append_cancel_left e2]

theorem javaFrame_line {f : JavaFrame} (h : JavaPlain f) : '\n' ∉ Text.Java.printFrame f := by
  cases h with
  | exception n m hf k1 k2 k3 k4 =>
    subst hf
    rw [printFrame_exception]
    cases m with
    | none => simpa using k2
    | some m => simp [k2, k4 m rfl]
  | method h h2 h3 =>
    have hd : ∀ n, '\n' ∉ natDec n := fun n => natDec_dec (by decide)
    have a1 : '\n' ∉ f.name.getD [] := by
      cases hn : f.name with
      | none => simp
      | some n => exact (h.name n hn).2.2.2
    have a2 : '\n' ∉ (if f.isNative = true then Text.Java.nativeMark else f.fileName.getD Text.Java.unknownMark) := by
      split
      · decide
      · cases hn : f.fileName with
        | none => decide
        | some n => exact (h.source n hn).2.2.2.1
    have a3 : '\n' ∉ (if f.fileLine ≠ 0 then ':' :: natDec f.fileLine else []) := by split <;> simp [hd]
    have a4 : '\n' ∉ Text.Java.printPath f.classPath := by
      cases hn : f.classPath with
      | none => simp [Text.Java.printPath]
      | some p =>
        have := (h.path p hn).2.2.1
        unfold Text.Java.printPath
        dsimp only
        split <;> simp [this]
    unfold Text.Java.printFrame
    rw [h.method, if_neg (by simp)]
    simp only [List.mem_append, not_or]
    exact ⟨⟨⟨⟨⟨⟨by decide, a1⟩, by decide⟩, a2⟩, a3⟩, by decide⟩, a4⟩

/-- C79: Java threads with the same short text have the same frames. -/
theorem C79_java (t u : JavaTrace) (a b : JavaThread) (as bs : List JavaThread) (ha : t.threads = a :: as) (hb : u.threads = b :: bs)
    (ht : ∀ f ∈ a.frames, JavaPlain f) (hu : ∀ f ∈ b.frames, JavaPlain f) (e : javaText t 0 = javaText u 0) : a.frames = b.frames := by
  rw [(C76_total 0).2.2.2.2 t a as ha, (C76_total 0).2.2.2.2 u b bs hb] at e
  have e' := Option.some.inj (Out.ok.inj e)
  have hp : ∀ n, printed 0 n = n := fun n => rfl
  rw [hp, hp, List.take_length, List.take_length] at e'
  have := shown_inj (shown := id) (fun f => javaFrame_line) C79_java_frame ht hu e'
  simpa using this

example : JavaPlain { name := some c!"java.lang.RuntimeException", message := some c!"a: b", isException := true } :=
  .exception _ _ rfl (by decide) (by decide) (by decide) (by rintro m ⟨⟩; decide)

end Satyr.Short
