import Verif.Heap.TextJs
import Verif.Text.RubyErase
import Verif.Text.Js
import Verif.Text.PythonLoc
import Verif.Heap.Props
/-!
# Reading a stack trace from text loses no memory (C147)
-/
namespace Satyr.Heap
open Satyr.CStr
open Satyr.Text
open Satyr.Frames

/-! ## Specification -/

/-- Reading that is to give `v`, a stack trace and the rest of the text: the program aborts for lack of memory; or the stack trace
is in memory that was not in use, and all other memory and the message are as before; or the result is NULL, all memory is as before,
and the message is a constant, or a text in memory that was not in use. -/
def Reads147 (m : Mem) (c : Message) (v : Option (Chain × Str)) (o : Out (Ptr × Str × Mem × Message)) : Prop :=
  o = .abort ∨ match v with
  | some (x, rest) => ∃ p m' f, o = .ok (p, rest, m', c) ∧ Holds m' x true p f ∧ Adds m m' f
  | none => (∃ rest s, o = .ok (0, rest, m, .constant s)) ∨
      ∃ rest q s, q ≠ 0 ∧ m q = none ∧ o = .ok (0, rest, m.set q (some (.text s)), .block q)

/-- As before, but a text stays in memory that neither the stack trace nor the message has. -/
def Loses147 (m : Mem) (c : Message) (v : Option (Chain × Str)) (o : Out (Ptr × Str × Mem × Message)) : Prop :=
  o = .abort ∨ ∃ q s, q ≠ 0 ∧ m q = none ∧ Reads147 (m.set q (some (.text s))) c v o

/-- `sr_ruby_stacktrace_parse` with a location in which no message is. -/
def rubyParse (A : Allocator) (inp : Str) (m : Mem) (c : Message) : Out (Ptr × Str × Mem × Message) :=
  (rubyTrace A inp ⟨m, some 0⟩).bind fun (p, rest, s) => .ok (p, rest, s.mem, match s.err with
    | some (q + 1) => .block (q + 1)
    | _ => c)

/-! ## Theorems -/

theorem Leaves.get {m : Mem} {s : Str} {m' : Mem} (h : Leaves m [s] m') : ∃ q, q ≠ 0 ∧ m q = Option.none ∧ m' = m.set q (some (.text s)) := by
  obtain ⟨ps, f, ht, ha⟩ := h
  cases ht with
  | @some _ q _ _ f h0 h1 ht =>
    cases ht
    refine ⟨q, h0, ha.fresh q (by simp), ?_⟩
    funext x
    by_cases e : x = q
    · rw [e, h1, set_eq]
    · rw [set_ne _ _ e]; exact ha.same x (by simpa using e)

/-- C147, JavaScript: for every text. -/
theorem C147_js (A : Allocator) (inp : Str) (m : Mem) (c : Message) :
    ∃ v, Js.parseTrace inp = .ok v ∧ Reads147 m c (v.map fun x => ((jsTracePart x.1).chain .jsTrace 0, x.2)) (jsTrace A inp m c) := by
  obtain ⟨v, hv⟩ := Js.C56_js_trace inp
  refine ⟨v, hv, ?_⟩
  rcases jsTrace_spec A m c hv with e | h
  · exact .inl e
  · cases v with
    | none => exact .inr (.inl ⟨_, _, h⟩)
    | some v => exact .inr h

theorem rubyParse_ok {m : Mem} {c : Message} {v : Str ⊕ (Str × Part)} {A : Allocator} {inp : Str} (h : RubyReads m v (rubyTrace A inp ⟨m, some 0⟩)) :
    Reads147 m c (v.getRight?.map fun x => (x.2.chain .rubyTrace 0, x.1)) (rubyParse A inp m c) := by
  unfold rubyParse
  rcases h with e | h
  · rw [e]; exact .inl rfl
  · cases v with
    | inl msg =>
      obtain ⟨s, e, hs⟩ := h
      rw [e, bind_ok]
      obtain ⟨q, hq, hq0, rfl⟩ := hs
      obtain ⟨q, rfl⟩ : ∃ n, q = n + 1 := ⟨q - 1, by revert hq0; cases q <;> simp⟩
      exact .inr (.inr ⟨_, _, msg, hq0, hq, rfl⟩)
    | inr v =>
      obtain ⟨p, m', f, e, h1, h2⟩ := h
      rw [e, bind_ok]
      exact .inr ⟨p, m', f, rfl, h1, h2⟩

/-- C147, Ruby: for every text that begins with a frame. -/
theorem C147_ruby_partial (A : Allocator) (inp : Str) (m : Mem) (c : Message) (h : ∃ f rest, Ruby.parseFrame inp = .ok (some (f, rest))) :
    ∃ v, Ruby.parse inp = .ok v ∧ Reads147 m c (v.map fun x => ((rubyTracePart x.1).chain .rubyTrace 0, x.2)) (rubyParse A inp m c) := by
  obtain ⟨v, hv, hp⟩ := Ruby.parseL_fine inp Loc.init
  refine ⟨v.getRight?, hp, ?_⟩
  have := rubyParse_ok (c := c) (rubyTrace_spec A m hv fun e he => by
    obtain ⟨f, rest, h⟩ := h
    have h2 := Ruby.parseFrameL_eq inp Loc.init
    rw [he, h] at h2
    cases h2)
  cases v <;> exact this

/-- The full claim is false for Ruby: if there is no frame at the beginning, the message about the frame is lost. -/
theorem C147_not_ruby (A : Allocator) (inp : Str) (m : Mem) (c : Message) (h : Ruby.parseFrame inp = .ok none) :
    Ruby.parse inp = .ok none ∧ Loses147 m c none (rubyParse A inp m c) := by
  refine ⟨by unfold Ruby.parse; rw [h]; rfl, ?_⟩
  have h2 := Ruby.parseFrameL_eq inp Loc.init
  rw [h] at h2
  rcases hp : Ruby.parseFrameL inp Loc.init with (⟨l, msg⟩ | v) | _ | _ <;> rw [hp] at h2
  · unfold rubyParse
    rcases rubyTrace_top A m hp with e | ⟨m₁, s, h3, e, hs⟩
    · rw [e]; exact .inl rfl
    · obtain ⟨q, hq0, hq, rfl⟩ := h3.get
      rw [e, bind_ok]
      obtain ⟨w, hw, hw0, rfl⟩ := hs
      obtain ⟨w, rfl⟩ : ∃ n, w = n + 1 := ⟨w - 1, by revert hw0; cases w <;> simp⟩
      exact .inr ⟨q, msg, hq0, hq, .inr (.inr ⟨_, _, _, hw0, hw, rfl⟩)⟩
  · cases h2
  · cases h2
  · cases h2

theorem parseL_of {inp : Str} {r : Option (PythonTrace × Str)} (h : Python.parse inp = .ok r) : ∃ v, Python.parseL inp = .ok v ∧ v.getRight? = r := by
  have h2 := Python.parseL_eq inp
  rw [h] at h2
  rcases hp : Python.parseL inp with v | _ | _ <;> rw [hp] at h2
  · refine ⟨v, rfl, ?_⟩
    have h2 : Out.ok v.getRight? = Out.ok r := h2
    injection h2
  · cases h2
  · cases h2

theorem start_of {inp : Str} {v} (h : Python.startL inp = .ok v) : Python.start inp = .ok (v.getRight?.map Prod.fst) := by
  rw [← Python.startL_eq inp, h]
  cases v <;> rfl

theorem frame_of {t : Str} {loc : Loc} {v r l} (h : Python.parseFrameL t loc = .ok (v, r, l)) : Python.parseFrame t = .ok (v.getRight?, r) := by
  rw [← Python.parseFrameL_eq t loc, h]
  rfl

/-- C147, Python: for every text in which no frame can be read where the frames are expected. -/
theorem C147_python_partial (A : Allocator) (inp : Str) (m : Mem) (c : Message) (h : Python.parse inp = .ok none)
    (hf : ∀ s, Python.start inp = .ok (some s) → ∃ r, Python.parseFrame s = .ok (none, r)) :
    Reads147 m c none (pythonTrace A inp m c) := by
  obtain ⟨v, hv, hr⟩ := parseL_of h
  cases v with
  | inr v => cases hr
  | inl e =>
    rcases pythonTrace_spec A m c hv with e | ⟨q, h1, h2, e, _⟩ | ⟨e, _⟩ | ⟨m', w, e, h1, t, loc, f, r, l, h2, h3⟩
    · exact .inl e
    · exact .inr (.inr ⟨_, q, _, h2, h1, e⟩)
    · exact .inr (.inl ⟨_, _, e⟩)
    · obtain ⟨r', h4⟩ := hf t (start_of h2)
      rw [frame_of h3] at h4
      cases h4

/-- The full claim is false for Python: whenever a stack trace is read, the message about the frame that could not be read after the
last one is lost. -/
theorem C147_not_python (A : Allocator) (inp rest : Str) (t : PythonTrace) (m : Mem) (c : Message) (h : Python.parse inp = .ok (some (t, rest))) :
    Loses147 m c (some ((pythonTracePart t).chain .pythonTrace 0, rest)) (pythonTrace A inp m c) := by
  obtain ⟨v, hv, hr⟩ := parseL_of h
  cases v with
  | inl e => cases hr
  | inr v =>
    have hr : some v = some (t, rest) := hr
    cases hr
    rcases pythonTrace_spec A m c hv with e | ⟨p, m₁, m', f, msg, e, h1, h2, h3⟩
    · exact .inl e
    · obtain ⟨q, hq0, hq, rfl⟩ := h1.get
      exact .inr ⟨q, msg, hq0, hq, .inr ⟨p, m', f, e, h2, h3⟩⟩

/-- It is also false if frames are read, but no name of an exception. -/
theorem C147_not_python_name (A : Allocator) (inp s r : Str) (f : PythonFrame) (m : Mem) (c : Message) (h : Python.parse inp = .ok none)
    (hs : Python.start inp = .ok (some s)) (hf : Python.parseFrame s = .ok (some f, r)) : Loses147 m c none (pythonTrace A inp m c) := by
  obtain ⟨v, hv, hr⟩ := parseL_of h
  cases v with
  | inr v => cases hr
  | inl e =>
    rcases pythonTrace_spec A m c hv with e | ⟨_, _, _, _, t, loc, e, r', l, h2, h3⟩ | ⟨_, e, h2⟩ | ⟨m', w, e, h1, _⟩
    · exact .inl e
    · have := start_of h2
      rw [hs] at this
      cases this
      have := frame_of h3
      rw [hf] at this
      cases this
    · have := start_of h2
      rw [hs] at this
      cases this
    · obtain ⟨q, hq0, hq, rfl⟩ := h1.get
      exact .inr ⟨q, w, hq0, hq, .inr (.inl ⟨_, _, e⟩)⟩

/-- What there is at the end: the address of the stack trace, the number of blocks in use, and the message. -/
def seen147 (o : Out (Ptr × Str × Mem × Message)) : Option (Ptr × Nat × Message) :=
  match o with
  | .ok (p, _, m, c) => some (p, ((List.range 100).filter fun x => (m x).isSome).length, c)
  | _ => none

/-- Whoever calls the Python function cannot know whether to free the message: it is allocated for one text and a constant for another. -/
theorem C147_not_owned : (∃ q, (seen147 (pythonTrace firstFree c!"Traceback (most recent call last):\nx\n" (fun _ => none) .unset)).map (·.2.2) = some (.block q)) ∧
    (seen147 (pythonTrace firstFree c!"x\n" (fun _ => none) .unset)).map (·.2.2) = some (.constant c!"Traceback header not found.") := by
  set_option maxRecDepth 20000 in
  exact ⟨⟨_, by with_unfolding_all rfl⟩, by decide +kernel⟩

/-- The text of a Python stack trace with two frames. -/
def python147 : Str :=
  c!"Traceback (most recent call last):\n  File \"a.py\", line 1, in f\n    g()\n  File \"/home/u/b.py\", line 2, in <module>\n    f()\nE: x\n"

set_option maxRecDepth 40000

/-- `C147_js`: a text with two frames; seven blocks are in use at the end. -/
example : (seen147 (jsTrace firstFree c!"E: m\n    at f (/home/x/a.js:1:2)\n    at b.js:3:4\n" (fun _ => none) .unset)) = some (1, 7, .unset) := by
  decide +kernel

/-- The second frame is wrong: nothing is left. -/
example : (seen147 (jsTrace firstFree c!"E: m\n    at f (/home/x/a.js:1:2)\n    at b.js:3\n" (fun _ => none) .unset)) =
    some (0, 0, .constant c!"The stacktrace does not match any JavaScript dialect") := by
  decide +kernel

/-- The condition of `C147_ruby_partial`. -/
example : ∃ f rest, Ruby.parseFrame c!"a.rb:1:in `f': m (E)\n\tfrom /home/x/b.rb:2:in `<main>'\n" = .ok (some (f, rest)) :=
  ⟨_, _, by with_unfolding_all rfl⟩

example : seen147 (rubyParse firstFree c!"a.rb:1:in `f': m (E)\n\tfrom /home/x/b.rb:2:in `<main>'\n" (fun _ => none) .unset) = some (1, 8, .unset) := by
  decide +kernel

/-- A wrong second frame: only the message is left. -/
example : seen147 (rubyParse firstFree c!"a.rb:1:in `f': m (E)\n\tfrom b\n" (fun _ => none) .unset) = some (0, 1, .block 8) := by
  decide +kernel

/-- The condition of `C147_not_ruby`; two blocks are left, one is the message. -/
example : Ruby.parseFrame c!"a.rb" = .ok none ∧ seen147 (rubyParse firstFree c!"a.rb" (fun _ => none) .unset) = some (0, 2, .block 2) := by
  decide +kernel

/-- The conditions of `C147_python_partial`. -/
example : Python.parse c!"Traceback (most recent call last):\nx\n" = .ok none ∧
    Python.start c!"Traceback (most recent call last):\nx\n" = .ok (some c!"x\n") ∧ Python.parseFrame c!"x\n" = .ok (none, c!"x\n") := by
  decide +kernel

/-- The condition of `C147_not_python`, and the blocks in use at the end: ten for the stack trace, and the lost message. -/
example : (∃ t rest, Python.parse python147 = .ok (some (t, rest))) ∧ seen147 (pythonTrace firstFree python147 (fun _ => none) .unset) = some (1, 11, .unset) :=
  ⟨⟨_, _, by with_unfolding_all rfl⟩, by decide +kernel⟩

/-- The conditions of `C147_not_python_name`. -/
example : Python.parse c!"Traceback (most recent call last):\n  File \"a.py\", line 1, in f\n    g()\n: x\n" = .ok none ∧
    Python.start c!"Traceback (most recent call last):\n  File \"a.py\", line 1, in f\n    g()\n: x\n" =
      .ok (some c!"  File \"a.py\", line 1, in f\n    g()\n: x\n") ∧
    (∃ f, Python.parseFrame c!"  File \"a.py\", line 1, in f\n    g()\n: x\n" = .ok (some f, c!": x\n")) ∧
    (seen147 (pythonTrace firstFree c!"Traceback (most recent call last):\n  File \"a.py\", line 1, in f\n    g()\n: x\n" (fun _ => none) .unset)).map (·.2.1) = some 1 :=
  ⟨by decide +kernel, by decide +kernel, ⟨_, by with_unfolding_all rfl⟩, by decide +kernel⟩

end Satyr.Heap
