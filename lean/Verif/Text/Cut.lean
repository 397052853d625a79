import Verif.CStr.Cut
import Verif.Text.RubyLoc
import Verif.Text.JsLoc
import Verif.Text.JavaLoc
import Verif.Text.PythonLoc
/-!
# Stack traces of scripts that were cut off (C141)
-/
namespace Satyr.Text.Ruby
open Satyr.CStr Satyr.Frames

theorem no_start {a w q t T : Str} (hq : '\'' ∈ w) (ha : '\'' ∉ a) (ht : t = w ++ q) (h : ¬ ∃ u, t = a ++ u) : ¬ ∃ u, t ++ T = a ++ u := by
  rintro ⟨u, hu⟩
  rcases List.append_eq_append_iff.1 hu with ⟨z, h1, h2⟩ | ⟨z, h1, h2⟩
  · rw [h1, ht] at ha
    exact ha (by simp [hq])
  · exact h ⟨z, h1⟩

theorem NameText.quote {s name t : Str} {b : Bool} (h : NameText s b name t) : ∃ w, s = w ++ t ∧ '\'' ∈ w := by
  obtain ⟨-, -, -, ⟨-, h⟩ | ⟨-, -, h⟩⟩ := h
  · exact ⟨_, h, by simp⟩
  · exact ⟨_, h, by simp⟩

theorem NameText.more {s name t : Str} {b : Bool} (h : NameText s b name t) (T : Str) : NameText (s ++ T) b name (t ++ T) := by
  obtain ⟨h1, h2, h3, h⟩ := h
  refine ⟨h1, h2, h3, ?_⟩
  rcases h with ⟨rfl, rfl⟩ | ⟨rfl, h, rfl⟩
  · exact .inl ⟨rfl, by simp⟩
  · refine .inr ⟨rfl, ?_, by simp⟩
    cases name with
    | nil => exact absurd rfl h1
    | cons c name => exact h

theorem BlockText.more {s w q t : Str} {n : Nat} (h : BlockText s n t) (ht : t = w ++ q) (hq : '\'' ∈ w) (T : Str) : BlockText (s ++ T) n (t ++ T) := by
  cases h with
  | one => rw [List.append_assoc]; exact .one _
  | many d n _ hn => rw [List.append_assoc]; exact .many d n _ hn
  | none _ h1 h2 => exact .none _ (no_start hq (by decide) ht h1) (no_start hq (by decide) ht h2)

theorem BlockText.rest {s t : Str} {n : Nat} (h : BlockText s n t) : ∃ v, s = v ++ t := by
  cases h with
  | one => exact ⟨_, rfl⟩
  | many d => exact ⟨_, rfl⟩
  | none => exact ⟨[], rfl⟩

/-- A frame does not depend on what follows it. -/
theorem FrameText.more {s t : Str} {f : RubyFrame} (h : FrameText s f t) (T : Str) : FrameText (s ++ T) f (t ++ T) := by
  obtain ⟨file, digits, line, s1, rescue, s2, block, s3, special, name, rfl, h1, h2, h3, h4, h5, h6⟩ := h
  obtain ⟨w, hw, hq⟩ := h5.quote
  refine ⟨file, digits, line, s1 ++ T, rescue, s2 ++ T, block, s3 ++ T, special, name, by simp, h1, h2, ?_, h4.more hw hq T, h5.more T, h6⟩
  obtain ⟨rfl, h⟩ := h3
  obtain ⟨v, hv⟩ := h4.rest
  exact ⟨by rw [List.append_assoc], no_start (w := v ++ w) (q := t) (by simp [hq]) (by decide) (by rw [hv, hw, List.append_assoc]) h⟩

theorem Lines.grow {s T x y : Str} {fs gs : List RubyFrame} (h : Lines s fs x) (h' : Lines (s ++ T) gs y) : fs <+: gs := by
  induction h generalizing gs with
  | done => exact List.nil_prefix
  | more s u t f fs hf hl ih =>
    have hm := hf.more T
    rw [List.append_assoc] at h'
    generalize he : c!"\tfrom " ++ (s ++ T) = z at h'
    cases h' with
    | done _ h => rw [← he] at h; exact absurd (show ('\t' : Char) = '\x00' from h) (by decide)
    | more s' u' t' f' gs' hf' hl' =>
      have := List.append_cancel_left he
      subst this
      obtain ⟨rfl, e⟩ := hm.unique hf'
      injection e with _ e
      subst e
      exact (List.prefix_cons_inj f).2 (ih hl')
    | last s' t' f' hf' ht' =>
      have := List.append_cancel_left he
      subst this
      obtain ⟨rfl, rfl⟩ := hm.unique hf'
      exact absurd (show ('\n' : Char) = '\x00' from ht') (by decide)
  | last s t f hf ht =>
    have hm := hf.more T
    rw [List.append_assoc] at h'
    generalize he : c!"\tfrom " ++ (s ++ T) = z at h'
    cases h' with
    | done _ h => rw [← he] at h; exact absurd (show ('\t' : Char) = '\x00' from h) (by decide)
    | more s' u' t' f' gs' hf' hl' =>
      have := List.append_cancel_left he
      subst this
      obtain ⟨rfl, e⟩ := hm.unique hf'
      exact ⟨gs', rfl⟩
    | last s' t' f' hf' ht' =>
      have := List.append_cancel_left he
      subst this
      obtain ⟨rfl, rfl⟩ := hm.unique hf'
      exact List.prefix_rfl

theorem last_open {m m' c c' : Str} (h : '(' ∉ c) (h' : '(' ∉ c') (e : m ++ '(' :: c = m' ++ '(' :: c') : c = c' := by
  rcases List.append_eq_append_iff.1 e with ⟨z, -, h2⟩ | ⟨z, -, h2⟩
  · cases z with
    | nil => exact (List.cons.inj h2).2
    | cons d z => exact absurd (by rw [(List.cons.inj h2).2]; simp) h
  · cases z with
    | nil => exact (List.cons.inj h2).2.symm
    | cons d z => exact absurd (by rw [(List.cons.inj h2).2]; simp) h'

theorem first_tab {p p' r r' : Str} (h : '\t' ∉ p) (h' : '\t' ∉ p') (hr : peek r = '\t') (hr' : r' = [] ∨ peek r' = '\t') (e : p ++ r = p' ++ r') :
    p = p' ∧ r = r' := by
  obtain ⟨t, rfl⟩ : ∃ t, r = '\t' :: t := by
    cases r with
    | nil => exact absurd hr (by decide)
    | cons c t => exact ⟨t, by rw [show c = '\t' from hr]⟩
  rcases List.append_eq_append_iff.1 e with ⟨z, h1, h2⟩ | ⟨z, h1, h2⟩
  · cases z with
    | nil => exact ⟨by simpa using h1.symm, h2⟩
    | cons d z => exact absurd (by rw [h1, ← (List.cons.inj h2).1]; simp) h'
  · cases z with
    | nil => exact ⟨by simpa using h1, by simpa using h2.symm⟩
    | cons d z =>
      rcases hr' with rfl | hr'
      · cases h2
      · rw [h2] at hr'
        have : d = '\t' := hr'
        exact absurd (by rw [h1, this]; simp) h

/-- **C141** (Ruby): when the text of a backtrace is cut off anywhere and the beginning is still read, its frames are the first frames of the
whole backtrace; when there is more than the first frame, the class of the exception is the same too. -/
theorem C141_ruby_partial {s T x y : Str} {a b : RubyTrace} (h : parse s = .ok (some (a, x))) (h' : parse (s ++ T) = .ok (some (b, y))) :
    a.frames <+: b.frames ∧ (1 < a.frames.length → a.exceptionName = b.exceptionName) := by
  obtain ⟨f, m, c, r, fs, h1, h2, h3, h4, h5, h6, h7, rfl⟩ := (C53_exact _ _ _).1 h
  obtain ⟨f', m', c', r', fs', h1', h2', h3', h4', h5', h6', h7', rfl⟩ := (C53_exact _ _ _).1 h'
  obtain ⟨rfl, e⟩ := (h1.more T).unique h1'
  have hnil : Ended r → fs = [] := by
    intro hr
    cases h7 with
    | done => rfl
    | more => exact absurd (show ('\t' : Char) = '\x00' from hr) (by decide)
    | last => exact absurd (show ('\t' : Char) = '\x00' from hr) (by decide)
  rcases h6 with rfl | h6
  · rw [hnil rfl]
    exact ⟨⟨fs', rfl⟩, fun h => absurd h (by simp)⟩
  · have hne : peek (r ++ T) = '\t' := by
      cases r with
      | nil => exact absurd h6 (by decide)
      | cons d r => exact h6
    rw [List.append_assoc] at e
    obtain ⟨e1, rfl⟩ := first_tab (by simp [h2, h3]) (by simp [h2', h3']) hne h6' e
    refine ⟨(List.prefix_cons_inj f).2 (h7.grow h7'), fun _ => ?_⟩
    have e2 : m ++ '(' :: c = m' ++ '(' :: c' := by
      have := List.append_cancel_right e1
      simpa using this
    rw [last_open h5 h5' e2]

/-- Both texts are read. -/
example : parse c!"a.rb:1:in `f': no (E)\n\tfrom b.rb:2:in `g'\n" =
      .ok (some (⟨some c!"E", [⟨some c!"a.rb", 1, false, some c!"f", 0, 0⟩, ⟨some c!"b.rb", 2, false, some c!"g", 0, 0⟩]⟩, [])) ∧
    parse (c!"a.rb:1:in `f': no (E)\n\tfrom b.rb:2:in `g'\n" ++ c!"\tfrom c.rb:3:in `<main>'\n") =
      .ok (some (⟨some c!"E", [⟨some c!"a.rb", 1, false, some c!"f", 0, 0⟩, ⟨some c!"b.rb", 2, false, some c!"g", 0, 0⟩,
        ⟨some c!"c.rb", 3, true, some c!"main", 0, 0⟩]⟩, [])) := by decide +kernel

/-- The class of the exception is not always that of the whole text when the text is cut off within the message. -/
theorem C141_not_ruby_class : ∃ (s T : Str) (a b : RubyTrace), EndsLine s ∧ parse s = .ok (some (a, [])) ∧ parse (s ++ T) = .ok (some (b, [])) ∧
    a.exceptionName = some c!"one" ∧ b.exceptionName = some c!"E" :=
  ⟨c!"a.rb:1:in `f': no (one)\n", c!"or two (E)\n", ⟨some c!"one", [⟨some c!"a.rb", 1, false, some c!"f", 0, 0⟩]⟩,
    ⟨some c!"E", [⟨some c!"a.rb", 1, false, some c!"f", 0, 0⟩]⟩, ⟨c!"a.rb:1:in `f': no (one)", rfl⟩, by decide +kernel, by decide +kernel, rfl, rfl⟩

end Satyr.Text.Ruby

namespace Satyr.Text.Js
open Satyr.CStr Satyr.Frames

theorem Frames.cut {ls ls' : List Str} {fs : List JsFrame} (h : Frames (ls ++ ls') fs) (hne : ls' ≠ []) :
    ∃ gs, Frames (ls ++ [[]]) gs ∧ gs <+: fs ∧ gs.length = ls.length := by
  induction ls generalizing fs with
  | nil => exact ⟨[], .last, List.nil_prefix, rfl⟩
  | cons l ls ih =>
    obtain ⟨l2, r, e⟩ : ∃ l2 r, ls ++ ls' = l2 :: r := List.exists_cons_of_ne_nil (by simp [hne])
    rw [List.cons_append, e] at h
    cases h with
    | cons hf h =>
      rw [← e] at h
      obtain ⟨gs, h1, h2, h3⟩ := ih h
      refine ⟨_ :: gs, ?_, (List.prefix_cons_inj _).2 h2, by simp [h3]⟩
      obtain ⟨l3, r3, e3⟩ : ∃ l2 r, ls ++ [[]] = l2 :: r := List.exists_cons_of_ne_nil (by simp)
      rw [List.cons_append, e3]
      exact .cons hf (e3 ▸ h1)

/-- **C141** (JavaScript): when a stack trace is cut off after any of its lines but the last, it is read as the same exception with the frames of
the lines that are left. -/
theorem C141_js (l0 : Str) (ls ls' : List Str) (hne : ls' ≠ []) (hl : ∀ x ∈ l0 :: (ls ++ ls'), '\n' ∉ x) (hn : NoNul (joinLines l0 (ls ++ ls')))
    (t : JsTrace) (h : parseText (joinLines l0 (ls ++ ls')) = .ok (.inl t)) :
    ∃ a, parseText (joinLines l0 ls ++ c!"\n") = .ok (.inl a) ∧ a.exceptionName = t.exceptionName ∧ a.frames = t.frames.take ls.length := by
  obtain ⟨name, fs, h1, h2, rfl⟩ := (C112_js_read l0 _ hl hn t).1 h
  obtain ⟨gs, h3, h4, h5⟩ := h2.cut hne
  refine ⟨⟨some name, gs, 1⟩, ?_, rfl, ?_⟩
  · rw [show joinLines l0 ls ++ c!"\n" = joinLines l0 (ls ++ [[]]) by simp [joinLines]]
    refine (C112_js_read l0 _ ?_ ?_ _).2 ⟨name, gs, h1, h3, rfl⟩
    · intro x hx
      simp only [List.mem_cons, List.mem_append, List.not_mem_nil, or_false] at hx
      rcases hx with rfl | hx | rfl
      · exact hl _ (by simp)
      · exact hl _ (by simp [hx])
      · simp
    · intro hx
      refine hn ?_
      simp only [joinLines, List.flatMap_append, List.mem_append] at hx ⊢
      rcases hx with hx | hx | hx
      · exact .inl hx
      · exact .inr (.inl hx)
      · exact absurd hx (by decide)
  · rw [← h5]
    exact List.prefix_iff_eq_take.1 h4

/-- A stack trace with two frames, cut off after the first. -/
example : joinLines c!"E: m" ([c!"  at f (a.js:1:2)"] ++ [c!"  at g (b.js:3:4)"]) = c!"E: m\n  at f (a.js:1:2)\n  at g (b.js:3:4)" ∧
    parseText c!"E: m\n  at f (a.js:1:2)\n  at g (b.js:3:4)" =
      .ok (.inl ⟨some c!"E", [⟨some c!"a.js", 1, 2, some c!"f"⟩, ⟨some c!"b.js", 3, 4, some c!"g"⟩], 1⟩) := by decide +kernel

end Satyr.Text.Js

namespace Satyr.Text
open Satyr.CStr Satyr.Frames

/-- A Java thread whose text was cut off before the cause of the exception does not begin with the same frames: the frames of the cause come first. -/
theorem C141_not_java : ∃ (s T : Str) (a b : JavaThread), EndsLine s ∧ Java.parseThread s = .ok (some (a, [])) ∧
    Java.parseThread (s ++ T) = .ok (some (b, [])) ∧ ¬ a.frames <+: b.frames ∧ a.frames ≠ [] :=
  ⟨c!"Exception in thread \"main\" a.E: b\n\tat f(A.java:1)\n", c!"Caused by: a.D\n\tat g(B.java:2)\n",
    ⟨some c!"main", [{ name := some c!"a.E", message := some c!"b", isException := true }, { name := some c!"f", fileName := some c!"A.java", fileLine := 1 }]⟩,
    ⟨some c!"main", [{ name := some c!"a.D", isException := true }, { name := some c!"g", fileName := some c!"B.java", fileLine := 2 },
       { name := some c!"a.E", message := some c!"b", isException := true }, { name := some c!"f", fileName := some c!"A.java", fileLine := 1 }]⟩,
    .of (by decide +kernel), by decide +kernel, by decide +kernel, by decide, by decide⟩

/-- A Python traceback that was cut off after one of its calls is not read: there the text after its end is looked at (see
`C52_not_truncated`). -/
theorem C141_not_python : ∃ (s T : Str) (b : PythonTrace) (y : Str), EndsLine s ∧ Python.parse (s ++ T) = .ok (some (b, y)) ∧ b.frames.length = 2 ∧ Python.parse s = .ub :=
  ⟨c!"Traceback (most recent call last):\n  File \"a.py\", line 1, in f\n    x\n", c!"  File \"b.py\", line 2, in g\n    y\nE: m\n",
    ⟨some c!"E", [⟨false, some c!"b.py", 2, false, some c!"g", some c!"y"⟩, ⟨false, some c!"a.py", 1, false, some c!"f", some c!"x"⟩]⟩, c!": m\n",
    .of (by decide +kernel), by decide +kernel, rfl, by decide +kernel⟩

end Satyr.Text
