import Verif.Py.LangModel
import Verif.Py.ThreadProps
import Verif.Text.PythonLines
import Verif.Text.RubyLines
import Verif.Text.Js
import Verif.Short.Lines
/-!
# C134: stack traces of Python, Ruby and JavaScript in Python
-/
namespace Satyr.Py.Lang
open Satyr.CStr Satyr.Frames
open Satyr.Py.Base (Exc)
open Satyr.Py.Objects (textArg textArg_ok)
open Satyr.Py.Threads

variable {T F : Type}

/-! ## Specification -/

/-- What the arguments of a constructor stand for: nothing, or a text that the library reads. -/
inductive Wanted (c : Class T F) : List Value → T → Prop
  | empty : Wanted c [] c.empty
  | text {s rest : Str} {t : T} (h0 : '\x00' ∉ s) (h : c.parse s = .ok (some (t, rest))) : Wanted c [.str s] t

/-- What the arguments of `to_short_text` stand for: the number of frames, 0 for all of them. -/
inductive Limit : List Value → Int → Prop
  | all : Limit [] 0
  | some {v : Value} {n : Int} (h : v.asInt = some n) (hn : -2147483648 ≤ n ∧ n ≤ 2147483647) : Limit [v] n

theorem python_lawful : python.kind.Lawful := ⟨fun _ => rfl, fun _ _ => rfl⟩
theorem ruby_lawful : ruby.kind.Lawful := ⟨fun _ => rfl, fun _ _ => rfl⟩
theorem js_lawful : js.kind.Lawful := ⟨fun _ => rfl, fun _ _ => rfl⟩

/-! ## Constructors -/

theorem new_text (c : Class T F) {s : Str} (h : '\x00' ∉ s) (w : World F) {r : Option (T × Str)} (hr : c.parse s = .ok r) :
    new c [.str s] w = .ok (made c.kind w r) := by
  have e : textArg (.str s) = .ok s := textArg_ok.2 ⟨rfl, h⟩
  unfold new
  dsimp only
  rw [e]
  dsimp only
  rw [hr, Out.bind_ok]

/-- C134: a constructor succeeds exactly if there are no arguments or the library reads the text; the object shows what was read and has
frames of its own. A text that is not read gives `ValueError`, other arguments give an exception. -/
theorem C134_made (c : Class T F) (args : List Value) (w : World F) (hf : Fresh w) :
    (∀ o w', new c args w = .ok (.ok (o, w')) → ∃ t, Wanted c args t ∧ New c.kind w o w' t) ∧
    (∀ t, Wanted c args t → ∃ o w', new c args w = .ok (.ok (o, w')) ∧ New c.kind w o w' t) ∧
    (∀ s, args = [.str s] → '\x00' ∉ s → c.parse s = .ok none → new c args w = .ok (.error .value)) ∧
    ((args ≠ [] ∧ ¬ ∃ s, args = [.str s] ∧ '\x00' ∉ s) → ∃ e, new c args w = .ok (.error e)) := by
  refine ⟨?_, ?_, ?_, ?_⟩
  · intro o w' h
    match args, h with
    | [], h => cases h; exact ⟨_, .empty, wrap_new _ _ w hf⟩
    | [v], h =>
      cases hv : textArg v with
      | error e => simp [new, hv] at h
      | ok s =>
        obtain ⟨rfl, h0⟩ := textArg_ok.1 hv
        cases hp : c.parse s with
        | ok p =>
          rw [new_text c h0 w hp] at h
          cases p with
          | none => cases h
          | some p => cases h; exact ⟨p.1, .text (rest := p.2) h0 hp, wrap_new _ _ w hf⟩
        | abort => unfold new at h; dsimp only at h; rw [hv] at h; dsimp only at h; rw [hp] at h; cases h
        | ub => unfold new at h; dsimp only at h; rw [hv] at h; dsimp only at h; rw [hp] at h; cases h
    | _ :: _ :: _, h => simp [new] at h
  · intro t h
    cases h with
    | empty => exact ⟨_, _, rfl, wrap_new _ _ w hf⟩
    | text h0 h => exact ⟨_, _, new_text c h0 w h, wrap_new _ _ w hf⟩
  · rintro s rfl h0 h
    exact new_text c h0 w h
  · rintro ⟨h1, h2⟩
    match args with
    | [] => exact absurd rfl h1
    | [v] =>
      cases hv : textArg v with
      | error e => exact ⟨e, by simp [new, hv]⟩
      | ok s =>
        obtain ⟨rfl, h0⟩ := textArg_ok.1 hv
        exact absurd ⟨s, rfl, h0⟩ h2
    | _ :: _ :: _ => exact ⟨_, rfl⟩

/-- C134: the constructors for Ruby and JavaScript never fail otherwise than by an exception. -/
theorem C134_total (args : List Value) (w : World RubyFrame) (v : World JsFrame) :
    (∃ r, new ruby args w = .ok r) ∧ ∃ r, new js args v = .ok r := by
  have key {T F : Type} (c : Class T F) (hc : ∀ s, ∃ r, c.parse s = .ok r) (args : List Value) (w : World F) : ∃ r, new c args w = .ok r := by
    match args with
    | [] => exact ⟨_, rfl⟩
    | [v] =>
      cases hv : textArg v with
      | error e => exact ⟨.error e, by simp [new, hv]⟩
      | ok s =>
        obtain ⟨rfl, h0⟩ := textArg_ok.1 hv
        obtain ⟨r, hr⟩ := hc s
        exact ⟨_, new_text c h0 w hr⟩
    | _ :: _ :: _ => exact ⟨_, rfl⟩
  exact ⟨key ruby Text.Ruby.C56_ruby_trace args w, key js Text.Js.C56_js_trace args v⟩

/-- C134, not: the constructor for Python reads beyond the end of a text that ends within a stack trace. -/
theorem C134_not_python : ∃ s : Str, '\x00' ∉ s ∧ new python [.str s] {} = .ub :=
  ⟨c!"Traceback (most recent call last):\n  File \"a\", line 1, in f\n", by decide, by with_unfolding_all rfl⟩

/-- C134: which texts `PythonStacktrace` takes, and what it shows. -/
theorem C134_python (s : Str) (h0 : '\x00' ∉ s) (w : World PythonFrame) (hf : Fresh w) (t : PythonTrace) :
    (∃ o w', new python [.str s] w = .ok (.ok (o, w')) ∧ New python.kind w o w' t) ↔
      ∃ u fs name rest, Text.Python.Begins s u ∧ Text.Python.Frames u fs (name ++ rest) ∧ fs ≠ [] ∧ name ≠ [] ∧ ':' ∉ name ∧ '\n' ∉ name ∧
        (rest = [] ∨ peek rest = ':' ∨ peek rest = '\n') ∧ t = ⟨some name, fs.reverse⟩ := by
  constructor
  · rintro ⟨o, w', h, hn⟩
    obtain ⟨t', ht, hn'⟩ := (C134_made python [.str s] w hf).1 o w' h
    have g := (linked_eq python_lawful hn.shows' hn.linked).symm.trans (linked_eq python_lawful hn'.shows' hn'.linked)
    injection g with e
    subst e
    cases ht with
    | text _ hp =>
      obtain ⟨u, fs, name, h⟩ := (Text.Python.C52_texts _ _ _).1 hp
      exact ⟨u, fs, name, _, h⟩
  · rintro ⟨u, fs, name, rest, h⟩
    exact (C134_made python [.str s] w hf).2.1 t (.text h0 ((Text.Python.C52_texts _ _ _).2 ⟨u, fs, name, h⟩))

/-- C134: which texts `RubyStacktrace` takes, and what it shows. -/
theorem C134_ruby (s : Str) (h0 : '\x00' ∉ s) (w : World RubyFrame) (hf : Fresh w) :
    (∀ o w', new ruby [.str s] w = .ok (.ok (o, w')) → ∃ f message cls u fs rest, New ruby.kind w o w' ⟨some cls, f :: fs⟩ ∧
      Text.Ruby.FrameText s f (c!": " ++ message ++ c!"(" ++ cls ++ c!")\n" ++ u) ∧ '\t' ∉ message ∧ '\t' ∉ cls ∧
      cls ≠ [] ∧ '(' ∉ cls ∧ (u = [] ∨ peek u = '\t') ∧ Text.Ruby.Lines u fs rest) ∧
    (∀ f message cls u fs rest, Text.Ruby.FrameText s f (c!": " ++ message ++ c!"(" ++ cls ++ c!")\n" ++ u) → '\t' ∉ message → '\t' ∉ cls →
      cls ≠ [] → '(' ∉ cls → (u = [] ∨ peek u = '\t') → Text.Ruby.Lines u fs rest →
      ∃ o w', new ruby [.str s] w = .ok (.ok (o, w')) ∧ New ruby.kind w o w' ⟨some cls, f :: fs⟩) := by
  constructor
  · intro o w' h
    obtain ⟨t, ht, hn⟩ := (C134_made ruby [.str s] w hf).1 o w' h
    cases ht with
    | text _ hp =>
      obtain ⟨f, message, cls, u, fs, h1, h2, h3, h4, h5, h6, h7, rfl⟩ := (Text.Ruby.C53_exact _ _ _).1 hp
      exact ⟨f, message, cls, u, fs, _, hn, h1, h2, h3, h4, h5, h6, h7⟩
  · intro f message cls u fs rest h1 h2 h3 h4 h5 h6 h7
    exact (C134_made ruby [.str s] w hf).2.1 _ (.text h0 ((Text.Ruby.C53_exact _ _ _).2 ⟨f, message, cls, u, fs, h1, h2, h3, h4, h5, h6, h7, rfl⟩))

/-! ## Methods -/

theorem maxArg_ok (args : List Value) (n : Int) : maxArg args = .ok n ↔ Limit args n := by
  match args with
  | [] =>
    constructor
    · intro h; cases h; exact .all
    · intro h; cases h; rfl
  | [v] =>
    rw [maxArg, smallArg_ok]
    constructor
    · exact fun h => .some h.1 h.2
    · intro h
      cases h with
      | some h hn => exact ⟨h, hn⟩
  | _ :: _ :: _ =>
    constructor
    · intro h; cases h
    · intro h; cases h

/-- `to_short_text` is that of the C stack trace with the frames of the list. -/
theorem toShortText_eq (c : Class T F) (hc : c.kind.Lawful) {args : List Value} {n : Int} (ha : Limit args n) {w : World F} {o : Threads.Obj T}
    {t : T} (h : Shows c.kind w o t) {s : Str} (hs : c.short t n = .ok (some s)) :
    ∃ o', toShortText c args o w = .ok (.ok (s, o')) ∧ Shows c.kind w o' t ∧ Linked o' ∧ o'.items = o.items := by
  obtain ⟨o', e, h1, h2, h3, -⟩ := method_eq hc (fun t => c.short t n) h
  refine ⟨o', ?_, h1, h2, h3⟩
  unfold toShortText
  rw [(maxArg_ok args n).2 ha]
  dsimp only
  rw [e, Out.bind_ok]
  dsimp only
  rw [hs, Out.bind_ok]

/-- C134: `to_short_text` has a numbered line for each frame in the list, up to the number that was asked for. -/
theorem C134_short_partial {args : List Value} {n : Int} (ha : Limit args n) :
    (∀ (w : World PythonFrame) o t, Shows python.kind w o t → ∃ o', toShortText python args o w =
      .ok (.ok (Short.lines 1 ((t.frames.take (Short.printed n t.frames.length)).map Short.pythonFrame), o')) ∧ Shows python.kind w o' t) ∧
    (∀ (w : World RubyFrame) o t, Shows ruby.kind w o t → ∃ o', toShortText ruby args o w =
      .ok (.ok (Short.lines 1 ((t.frames.take (Short.printed n t.frames.length)).map Short.rubyFrame), o')) ∧ Shows ruby.kind w o' t) ∧
    (∀ (w : World JsFrame) o t, Shows js.kind w o t → (∀ f ∈ t.frames, f.fileName ≠ none) → ∃ o', toShortText js args o w =
      .ok (.ok (Short.lines 1 ((t.frames.take (Short.printed n t.frames.length)).map fun f => Short.textOf (Text.Js.printFrame f)), o')) ∧
        Shows js.kind w o' t) := by
  refine ⟨fun w o t h => ?_, fun w o t h => ?_, fun w o t h hf => ?_⟩
  · obtain ⟨o', e, h', -⟩ := toShortText_eq python python_lawful ha h ((Short.C76_total n).2.1 t)
    exact ⟨o', e, h'⟩
  · obtain ⟨o', e, h', -⟩ := toShortText_eq ruby ruby_lawful ha h ((Short.C76_total n).2.2.1 t)
    exact ⟨o', e, h'⟩
  · obtain ⟨o', e, h', -⟩ := toShortText_eq js js_lawful ha h (Short.C76_js t n hf)
    exact ⟨o', e, h'⟩

/-- C134: other arguments than one number in range give an exception. -/
theorem C134_limit (c : Class T F) (args : List Value) (o : Threads.Obj T) (w : World F) (h : ¬ ∃ n, Limit args n) :
    ∃ e, toShortText c args o w = .ok (.error e) := by
  cases e : maxArg args with
  | error x => exact ⟨x, by unfold toShortText; rw [e]⟩
  | ok n => exact absurd ⟨n, (maxArg_ok args n).1 e⟩ h

/-- C134: a copy shows the same as the list of the original and does not depend on it. -/
theorem C134_dup_partial (c : Class T F) (hc : c.kind.Lawful) (w : World F) (o : Threads.Obj T) (t : T) (h : Shows c.kind w o t) (hf : Fresh w) :
    ∃ o' o1 w', dup c o w = .ok (.ok (o', o1, w')) ∧ Shows c.kind w' o' t ∧ Shows c.kind w' o1 t ∧ o1.items = o.items ∧
      ∀ w'' : World F, (∀ p, some p ∉ o.items → w''.frame p = w'.frame p) → Shows c.kind w'' o' t := by
  obtain ⟨o', o1, w', e, h1, -, h2, -, h3, -, h4⟩ := C132_dup_partial c.kind hc w o t h hf
  exact ⟨o', o1, w', e, h1, h2, h3, h4⟩

/-- C134: the text of an object tells the number of frames in the list. -/
theorem C134_text (c : Class T F) (w : World F) (o : Threads.Obj T) (t : T) (h : Shows c.kind w o t) :
    str c o = c.label ++ c!" stacktrace with " ++ natDec (c.kind.frames t).length ++ c!" frames" := by
  have l : o.items.length = (c.kind.frames t).length := h.frames.length_eq
  rw [str, l]

/-- C134: something else than a frame in the list is a `TypeError`. -/
theorem C134_bad_item (c : Class T F) (w : World F) (o : Threads.Obj T) (h : none ∈ o.items) {args : List Value} {n : Int} (ha : Limit args n) :
    dup c o w = .ok (.error .type) ∧ toShortText c args o w = .ok (.error .type) := by
  refine ⟨(C132_bad_item c.kind (fun t => t) w o h).2, ?_⟩
  unfold toShortText
  rw [(maxArg_ok args n).2 ha]
  dsimp only
  rw [(C132_bad_item c.kind (fun t => c.short t n) w o h).1, Out.bind_ok]

/-! ## From a text to the short text -/

/-- C134: a backtrace as Ruby prints it has a short text with the first places, in order. -/
theorem C134_ruby_short (first : Text.Ruby.Place) (message cls : Str) (rest : List Text.Ruby.Place) (h : ∀ p ∈ first :: rest, p.WF)
    (hm : '\t' ∉ message) (hc : cls ≠ []) (hc1 : '(' ∉ cls) (hc2 : '\t' ∉ cls) (h0 : '\x00' ∉ Text.Ruby.traceText first message cls rest)
    (w : World RubyFrame) (hf : Fresh w) {args : List Value} {n : Int} (ha : Limit args n) :
    ∃ o w' o', new ruby [.str (Text.Ruby.traceText first message cls rest)] w = .ok (.ok (o, w')) ∧
      str ruby o = c!"Ruby stacktrace with " ++ natDec (rest.length + 1) ++ c!" frames" ∧
      toShortText ruby args o w' = .ok (.ok
        (Short.lines 1 (((first :: rest).take (Short.printed n (rest.length + 1))).map fun p => Short.rubyFrame p.frame), o')) := by
  obtain ⟨o, w', e, hn⟩ := (C134_made ruby _ w hf).2.1 _ (.text h0 (Text.Ruby.C53_read_partial first message cls rest h hm hc hc1 hc2))
  obtain ⟨o', e', -⟩ := (C134_short_partial ha).2.1 w' o _ hn.shows'
  refine ⟨o, w', o', e, ?_, ?_⟩
  · rw [C134_text ruby w' o _ hn.shows']
    simp [ruby]
  · rw [e']
    dsimp only
    rw [← List.map_take, List.map_map, List.length_map]
    rfl

/-- C134: a stack trace as V8 prints it has a short text with the frames as they were printed, if no file is below a home directory. -/
theorem C134_js_short (name message : Str) (fs : List (JsFrame × Str × Str)) (hn : name ≠ []) (hn1 : ':' ∉ name) (hn2 : '\n' ∉ name)
    (hm : '\n' ∉ message) (h : ∀ x ∈ fs, Text.Js.Clean x.1 x.2.1 ∧ Text.Js.printFrame x.1 = .ok x.2.2 ∧ anonymizePath x.2.1 = x.2.1)
    (h0 : '\x00' ∉ Text.Js.traceText name message (fs.map (·.2.2))) (w : World JsFrame) (hf : Fresh w) :
    ∃ o w' o', new js [.str (Text.Js.traceText name message (fs.map (·.2.2)))] w = .ok (.ok (o, w')) ∧
      toShortText js [] o w' = .ok (.ok (Short.lines 1 (fs.map (·.2.2)), o')) := by
  have hp := Text.Js.C69_read_partial name message fs hn hn1 hn2 hm fun x hx => ⟨(h x hx).1, (h x hx).2.1⟩
  have e : (fs.map fun x => { x.1 with fileName := some (anonymizePath x.2.1) }) = fs.map (·.1) := by
    refine List.map_congr_left fun x hx => ?_
    obtain ⟨h1, -, h3⟩ := h x hx
    rw [h3, ← h1.fileName]
  rw [e] at hp
  obtain ⟨o, w', e1, hw⟩ := (C134_made js _ w hf).2.1 _ (.text h0 hp)
  obtain ⟨o', e2, -⟩ := (C134_short_partial .all).2.2 w' o _ hw.shows' (by
    intro f hf
    obtain ⟨x, hx, rfl⟩ := List.mem_map.1 hf
    rw [(h x hx).1.fileName]
    simp)
  refine ⟨o, w', o', e1, ?_⟩
  rw [e2]
  dsimp only
  rw [show Short.printed 0 (fs.map (·.1)).length = (fs.map (·.1)).length by simp [Short.printed], List.take_length, List.map_map]
  rw [List.map_congr_left (g := (·.2.2)) fun x hx => ?_]
  show Short.textOf (Text.Js.printFrame x.1) = x.2.2
  rw [(h x hx).2.1]
  rfl

/-! ## Examples and what does not hold -/

def sample : RubyTrace := ⟨some c!"E", [⟨some c!"a.rb", 1, false, some c!"f", 0, 0⟩, ⟨some c!"b.rb", 7, true, some c!"main", 0, 0⟩]⟩

example : ∃ o w', new ruby [.str c!"a.rb:1:in `f': m (E)\n\tfrom b.rb:7:in `<main>'\n"] {} = .ok (.ok (o, w')) ∧ New ruby.kind {} o w' sample :=
  (C134_made ruby _ {} fun _ _ => rfl).2.1 sample (.text (rest := []) (by decide) (by decide +kernel))

example : Limit [.int 1] 1 ∧ Limit [.bool true] 1 ∧ ¬ ∃ n, Limit [.int 4294967296] n := by
  refine ⟨.some rfl (by decide), .some rfl (by decide), ?_⟩
  rintro ⟨n, h⟩
  cases h with
  | some h hn => cases h; omega

example : toShortText ruby [.int 1] (wrap ruby.kind sample {}).1 (wrap ruby.kind sample {}).2 =
    .ok (.ok (c!"#1 f in a.rb:1\n", (wrap ruby.kind sample {}).1)) := by with_unfolding_all rfl

example : ∃ o w', new python [.str c!"Traceback (most recent call last):\n  File \"a\", line 1, in f\n    g()\nE: m\n"] {} = .ok (.ok (o, w')) ∧
    New python.kind {} o w' ⟨some c!"E", [⟨false, some c!"a", 1, false, some c!"f", some c!"g()"⟩]⟩ :=
  (C134_made python _ {} fun _ _ => rfl).2.1 _ (.text (rest := c!": m\n") (by decide) (by decide +kernel))

def sampleJs : List (JsFrame × Str × Str) :=
  [(⟨some c!"/srv/b.js", 1, 2, some c!"a"⟩, c!"/srv/b.js", c!"at a (/srv/b.js:1:2)"), (⟨some c!"c.js", 3, 4, none⟩, c!"c.js", c!"at c.js:3:4")]

example : ∃ o w' o', new js [.str c!"ReferenceError: x\n    at a (/srv/b.js:1:2)\n    at c.js:3:4\n"] {} = .ok (.ok (o, w')) ∧
    toShortText js [] o w' = .ok (.ok (c!"#1 at a (/srv/b.js:1:2)\n#2 at c.js:3:4\n", o')) := by
  obtain ⟨o, w', o', h1, h2⟩ := C134_js_short c!"ReferenceError" c!"x" sampleJs (by decide) (by decide) (by decide) (by decide) (by
    intro x hx
    simp only [sampleJs, List.mem_cons, List.not_mem_nil, or_false] at hx
    rcases hx with rfl | rfl
    · exact ⟨⟨rfl, by decide, by decide, by decide, by decide, by decide, by rintro n ⟨⟩; exact ⟨by decide, by decide, by decide⟩⟩,
        by decide +kernel, by decide +kernel⟩
    · exact ⟨⟨rfl, by decide, by decide, by decide, by decide, by decide, by rintro n ⟨⟩⟩, by decide +kernel, by decide +kernel⟩)
    (by decide +kernel) {} (fun _ _ => rfl)
  exact ⟨o, w', o', h1, h2.trans (by with_unfolding_all rfl)⟩

/-- C134, not: the short text of a JavaScript stack trace with a frame without file prints a null pointer. -/
theorem C134_not_short : ∃ (w : World JsFrame) (o : Threads.Obj JsTrace) (t : JsTrace), Shows js.kind w o t ∧ toShortText js [] o w = .ub :=
  ⟨_, _, ⟨none, [{}], 0⟩, (wrap_new js.kind _ {} fun _ _ => rfl).shows', rfl⟩

/-- C134, not: when all frames are removed from the list, the copy and the short text still have them. -/
theorem C134_not_emptied : ∃ (w : World RubyFrame) (o : Threads.Obj RubyTrace), o.items = [] ∧
    (∃ o', toShortText ruby [] o w = .ok (.ok (c!"#1 f in a.rb:1\n#2 <main> in b.rb:7\n", o'))) ∧
    ∃ o' o1 w', dup ruby o w = .ok (.ok (o', o1, w')) ∧ Shows ruby.kind w' o' sample :=
  ⟨(wrap ruby.kind sample {}).2, { (wrap ruby.kind sample {}).1 with items := [] }, rfl, ⟨_, by with_unfolding_all rfl⟩, _, _, _, rfl,
    (wrap_new ruby.kind sample (wrap ruby.kind sample {}).2 (wrap_new ruby.kind sample {} fun _ _ => rfl).fresh).shows'⟩

end Satyr.Py.Lang
