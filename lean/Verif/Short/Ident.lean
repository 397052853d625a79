import Verif.Short.Lines
/-!
# C79: the short text identifies what is printed of the frames
-/
namespace Satyr.Short
open Satyr.CStr Satyr.Frames

/-! ## Lists -/

theorem cut {c : Char} : ∀ {a a' b b' : Str}, c ∉ a → c ∉ a' → a ++ c :: b = a' ++ c :: b' → a = a' ∧ b = b'
  | [], [], _, _, _, _, h => ⟨rfl, (List.cons.inj h).2⟩
  | [], x :: _, _, _, _, h2, h => absurd (List.cons.inj h).1 fun e => h2 (by simp [e])
  | x :: _, [], _, _, h1, _, h => absurd (List.cons.inj h).1 fun e => h1 (by simp [e])
  | x :: a, y :: a', _, _, h1, h2, h => by
    obtain ⟨e, h'⟩ := List.cons.inj h
    obtain ⟨e1, e2⟩ := cut (fun hm => h1 (List.mem_cons_of_mem _ hm)) (fun hm => h2 (List.mem_cons_of_mem _ hm)) h'
    exact ⟨by rw [e, e1], e2⟩

theorem no_cut {c : Char} {a a' b : Str} (h : c ∉ a') : a ++ c :: b ≠ a' := fun e => h (by rw [← e]; simp)

/-- The lines can be told apart. -/
theorem lines_inj : ∀ {i : Nat} {xs ys : List Str}, (∀ x ∈ xs, '\n' ∉ x) → (∀ y ∈ ys, '\n' ∉ y) → lines i xs = lines i ys → xs = ys
  | _, [], [], _, _, _ => rfl
  | i, [], y :: ys, _, _, h => by simp [lines, line] at h
  | i, x :: xs, [], _, _, h => by simp [lines, line] at h
  | i, x :: xs, y :: ys, hx, hy, h => by
    have h' : x ++ '\n' :: lines (i + 1) xs = y ++ '\n' :: lines (i + 1) ys := by
      have e : ∀ (z : Str) (zs : List Str), lines i (z :: zs) = (c!"#" ++ natDec i ++ c!" ") ++ (z ++ '\n' :: lines (i + 1) zs) := by
        intro z zs; simp [lines, line]
      rw [e, e] at h
      exact List.append_cancel_left h
    obtain ⟨e1, e2⟩ := cut (hx x (by simp)) (hy y (by simp)) h'
    rw [e1, lines_inj (fun z hz => hx z (by simp [hz])) (fun z hz => hy z (by simp [hz])) e2]

theorem natDec_dec {n : Nat} {c : Char} (h : IsDec c = false) : c ∉ natDec n := fun hm => by
  rw [(natDec_spec n).1 c hm] at h; cases h

/-! ## Kernel oopses -/

/-- A kernel oops frame as it is read from kernel messages: the name of the function has no blanks and does not look like a
mark. -/
structure KoopsPlain (f : KoopsFrame) : Prop where
  stack : ∀ s, f.specialStack = some s → ']' ∉ s ∧ '\n' ∉ s
  name : ∀ n, f.functionName = some n → n ≠ [] ∧ ' ' ∉ n ∧ '\n' ∉ n ∧ '[' ∉ n ∧ n ≠ c!"?" ∧ n ≠ c!"??"
  module : ∀ m, f.moduleName = some m → '\n' ∉ m

/-- What the text of a kernel oops frame shows. -/
def koopsShown (f : KoopsFrame) : Option Str × Bool × Option Str × Option Str := (f.specialStack, f.reliable, f.functionName, f.moduleName)

/-- The name as printed. -/
theorem KoopsPlain.printed {f : KoopsFrame} (h : KoopsPlain f) :
    f.functionName.getD c!"??" ≠ [] ∧ ' ' ∉ f.functionName.getD c!"??" ∧ '\n' ∉ f.functionName.getD c!"??" ∧
      '[' ∉ f.functionName.getD c!"??" ∧ f.functionName.getD c!"??" ≠ c!"?" := by
  cases hn : f.functionName with
  | none => decide
  | some n => obtain ⟨h1, h2, h3, h4, h5, _⟩ := h.name n hn; exact ⟨h1, h2, h3, h4, h5⟩

/-- The part of the text after the label of the stack. -/
def koopsRest (f : KoopsFrame) : Str :=
  (if f.reliable then [] else c!"? ") ++ f.functionName.getD c!"??" ++
  match f.moduleName with
  | some m => c!" in " ++ m
  | none => []

theorem koopsFrame_none {f : KoopsFrame} (h : f.specialStack = none) : koopsFrame f = koopsRest f := by
  unfold koopsFrame koopsRest; rw [h]; cases f.moduleName <;> simp

theorem koopsFrame_some {f : KoopsFrame} {s : Str} (h : f.specialStack = some s) : koopsFrame f = '[' :: (s ++ ']' :: ' ' :: koopsRest f) := by
  unfold koopsFrame koopsRest; rw [h]; cases f.moduleName <;> simp

theorem nameModule_inj {n n' : Str} {m m' : Option Str} (h : ' ' ∉ n) (h' : ' ' ∉ n')
    (e : (n ++ match m with | some m => c!" in " ++ m | none => []) = n' ++ match m' with | some m => c!" in " ++ m | none => []) :
    n = n' ∧ m = m' := by
  cases m with
  | none =>
    cases m' with
    | none => simpa using e
    | some m' =>
      rw [List.append_nil] at e
      exact absurd e.symm (no_cut h)
  | some m =>
    cases m' with
    | none =>
      dsimp only at e
      rw [List.append_nil] at e
      exact absurd e (no_cut h')
    | some m' =>
      obtain ⟨e1, e2⟩ := cut (b := c!"in " ++ m) (b' := c!"in " ++ m') h h' e
      exact ⟨e1, by simpa using e2⟩

theorem koopsRest_inj {f g : KoopsFrame} (hf : KoopsPlain f) (hg : KoopsPlain g) (e : koopsRest f = koopsRest g) :
    f.reliable = g.reliable ∧ f.functionName.getD c!"??" = g.functionName.getD c!"??" ∧ f.moduleName = g.moduleName := by
  obtain ⟨f1, f2, -, -, f5⟩ := hf.printed
  obtain ⟨g1, g2, -, -, g5⟩ := hg.printed
  unfold koopsRest at e
  generalize f.functionName.getD c!"??" = n at *
  generalize g.functionName.getD c!"??" = n' at *
  have key : ∀ (a b : Str) (x y : Str), ' ' ∉ a → a ≠ c!"?" → a ++ x = c!"? " ++ y → x = [] ∨ (∃ z, x = ' ' :: z) → False := by
    intro a b x y h1 h2 e hx
    have e' : a ++ x = c!"?" ++ ' ' :: y := e
    rcases hx with rfl | ⟨z, rfl⟩
    · rw [List.append_nil] at e'
      exact no_cut h1 e'.symm
    · exact h2 (cut h1 (by decide) e').1
  have tail : ∀ m : Option Str, (match m with | some m => c!" in " ++ m | none => []) = [] ∨
      ∃ z, (match m with | some m => c!" in " ++ m | none => []) = ' ' :: z := by
    intro m
    cases m with
    | none => exact .inl rfl
    | some m => exact .inr ⟨_, rfl⟩
  cases hr : f.reliable <;> cases hr' : g.reliable <;> rw [hr, hr'] at e
  · simp only [Bool.false_eq_true, if_false, List.append_assoc] at e
    obtain ⟨e1, e2⟩ := nameModule_inj f2 g2 (List.append_cancel_left e)
    exact ⟨rfl, e1, e2⟩
  · simp only [Bool.false_eq_true, if_false, if_true, List.append_assoc, List.nil_append] at e
    exact (key n' [] _ _ g2 g5 e.symm (tail _)).elim
  · simp only [Bool.false_eq_true, if_false, if_true, List.append_assoc, List.nil_append] at e
    exact (key n [] _ _ f2 f5 e (tail _)).elim
  · simp only [if_true, List.nil_append] at e
    obtain ⟨e1, e2⟩ := nameModule_inj f2 g2 e
    exact ⟨rfl, e1, e2⟩

theorem koopsRest_head {f : KoopsFrame} (h : KoopsPlain f) (x : Str) : koopsRest f ≠ '[' :: x := by
  obtain ⟨h1, -, -, h4, -⟩ := h.printed
  unfold koopsRest
  generalize f.functionName.getD c!"??" = n at *
  cases f.reliable with
  | false => intro e; cases e
  | true =>
    cases n with
    | nil => exact absurd rfl h1
    | cons c n => intro e; simp at e; exact h4 (by simp [e.1])

/-- C79: the text of a kernel oops frame identifies its stack, reliability, function and module. -/
theorem C79_koops_frame (f g : KoopsFrame) (hf : KoopsPlain f) (hg : KoopsPlain g) (e : koopsFrame f = koopsFrame g) :
    koopsShown f = koopsShown g := by
  have rest : koopsRest f = koopsRest g → f.specialStack = g.specialStack → koopsShown f = koopsShown g := by
    intro e hs
    obtain ⟨e1, e2, e3⟩ := koopsRest_inj hf hg e
    have : f.functionName = g.functionName := by
      cases h1 : f.functionName <;> cases h2 : g.functionName <;> rw [h1, h2] at e2
      · exact absurd e2.symm (hg.name _ h2).2.2.2.2.2
      · exact absurd e2 (hf.name _ h1).2.2.2.2.2
      · exact congrArg some e2
    unfold koopsShown
    rw [hs, e1, this, e3]
  cases h1 : f.specialStack with
  | none =>
    rw [koopsFrame_none h1] at e
    cases h2 : g.specialStack with
    | none => rw [koopsFrame_none h2] at e; exact rest e (by rw [h1, h2])
    | some s => rw [koopsFrame_some h2] at e; exact absurd e (koopsRest_head hf _)
  | some s =>
    rw [koopsFrame_some h1] at e
    cases h2 : g.specialStack with
    | none => rw [koopsFrame_none h2] at e; exact absurd e.symm (koopsRest_head hg _)
    | some s' =>
      rw [koopsFrame_some h2] at e
      obtain ⟨e1, e2⟩ := cut (hf.stack s h1).1 (hg.stack s' h2).1 (List.cons.inj e).2
      exact rest (List.cons.inj e2).2 (by rw [h1, h2, e1])

theorem koopsFrame_line {f : KoopsFrame} (h : KoopsPlain f) : '\n' ∉ koopsFrame f := by
  have hr : '\n' ∉ koopsRest f := by
    obtain ⟨-, -, h3, -, -⟩ := h.printed
    unfold koopsRest
    generalize f.functionName.getD c!"??" = n at *
    cases hm : f.moduleName with
    | none => cases f.reliable <;> simpa using h3
    | some m => have := h.module m hm; cases f.reliable <;> simp [h3, this]
  cases h1 : f.specialStack with
  | none => rw [koopsFrame_none h1]; exact hr
  | some s => have := (h.stack s h1).2; rw [koopsFrame_some h1]; simp [this, hr]

/-- C76: what is printed for a kernel oops frame: the stack in brackets, a question mark if the frame is not reliable, the function
and the module. -/
theorem C76_koops_frame (f : KoopsFrame) (n : Str) (hn : f.functionName = some n) :
    (f.specialStack = none → f.reliable = true → f.moduleName = none → koopsFrame f = n) ∧
    (f.specialStack = none → f.reliable = false → f.moduleName = none → koopsFrame f = c!"? " ++ n) ∧
    (∀ m, f.specialStack = none → f.reliable = true → f.moduleName = some m → koopsFrame f = n ++ c!" in " ++ m) ∧
    (∀ s m, f.specialStack = some s → f.reliable = true → f.moduleName = some m → koopsFrame f = c!"[" ++ s ++ c!"] " ++ n ++ c!" in " ++ m) ∧
    (∀ s m, f.specialStack = some s → f.reliable = false → f.moduleName = some m →
      koopsFrame f = c!"[" ++ s ++ c!"] ? " ++ n ++ c!" in " ++ m) := by
  unfold koopsFrame
  rw [hn]
  refine ⟨?_, ?_, ?_, ?_, ?_⟩ <;> intros <;> simp [*]

/-! ## Lists of frames -/

/-- If texts of frames identify what is shown, so do the lines. -/
theorem shown_inj {F S : Type} {P : F → Prop} {print : F → Str} {shown : F → S} (hl : ∀ f, P f → '\n' ∉ print f)
    (hi : ∀ f g, P f → P g → print f = print g → shown f = shown g) {fs gs : List F} (hf : ∀ f ∈ fs, P f) (hg : ∀ g ∈ gs, P g)
    (e : lines 1 (fs.map print) = lines 1 (gs.map print)) : fs.map shown = gs.map shown := by
  have e' := lines_inj (by simpa using fun f h => hl f (hf f h)) (by simpa using fun f h => hl f (hg f h)) e
  clear e
  induction fs generalizing gs with
  | nil =>
    cases gs with
    | nil => rfl
    | cons g gs => cases e'
  | cons f fs ih =>
    cases gs with
    | nil => cases e'
    | cons g gs =>
      simp only [List.map_cons, List.cons.injEq] at e' ⊢
      exact ⟨hi f g (hf f (by simp)) (hg g (by simp)) e'.1,
        ih (fun x hx => hf x (by simp [hx])) (fun x hx => hg x (by simp [hx])) e'.2⟩

/-- C79: kernel oopses with the same short text have the same functions, modules, stacks and reliability. -/
theorem C79_koops (t u : KoopsTrace) (ht : ∀ f ∈ t.frames, KoopsPlain f) (hu : ∀ f ∈ u.frames, KoopsPlain f)
    (e : koopsText t 0 = koopsText u 0) : t.frames.map koopsShown = u.frames.map koopsShown := by
  rw [(C76_total 0).1 t, (C76_total 0).1 u] at e
  have e' := Option.some.inj (Out.ok.inj e)
  have hp : ∀ n, printed 0 n = n := fun n => rfl
  rw [hp, hp, List.take_length, List.take_length] at e'
  exact shown_inj (fun f => koopsFrame_line) C79_koops_frame ht hu e'

example : KoopsPlain { reliable := true, functionName := some c!"do_IRQ", moduleName := some c!"ext4", specialStack := some c!"IRQ" } :=
  ⟨by rintro s ⟨⟩; decide, by rintro s ⟨⟩; decide, by rintro s ⟨⟩; decide⟩

/-! ## Python -/

/-- A name that is not mistaken for a special one. -/
def Ordinary (special : Bool) (name : Str) : Prop := special = false → ¬ ∃ x, name = '<' :: x

theorem bracketed_inj {s s' : Bool} {n n' : Str} (h : Ordinary s n) (h' : Ordinary s' n') (e : bracketed s n = bracketed s' n') :
    s = s' ∧ n = n' := by
  cases s <;> cases s' <;> simp [bracketed] at e
  · exact ⟨rfl, e⟩
  · exact absurd ⟨_, e⟩ (h rfl)
  · exact absurd ⟨_, e.symm⟩ (h' rfl)
  · exact ⟨rfl, e⟩

theorem mem_bracketed {s : Bool} {n : Str} {c : Char} (h1 : c ≠ '<') (h2 : c ≠ '>') : c ∈ bracketed s n ↔ c ∈ n := by
  cases s <;> simp [bracketed, h1, h2]

/-- A Python frame with an ordinary file name. -/
structure PythonPlain (f : PythonFrame) : Prop where
  file : ∀ p, f.fileName = some p → ']' ∉ p ∧ ':' ∉ p ∧ '\n' ∉ p ∧ Ordinary f.specialFile p
  noFile : f.fileName = none → f.specialFile = false ∧ f.fileLine = 0
  name : ∀ n, f.functionName = some n → '\n' ∉ n ∧ n ≠ c!"??" ∧ Ordinary f.specialFunction n

/-- What the text of a Python frame shows: everything but the source line. -/
def pythonShown (f : PythonFrame) : PythonFrame := { f with lineContents := none }

theorem PythonPlain.printed {f : PythonFrame} (h : PythonPlain f) :
    '\n' ∉ f.functionName.getD c!"??" ∧ Ordinary f.specialFunction (f.functionName.getD c!"??") := by
  cases hn : f.functionName with
  | none => exact ⟨by decide, fun _ ⟨x, hx⟩ => by cases hx⟩
  | some n => exact ⟨(h.name n hn).1, (h.name n hn).2.2⟩

/-- A position in a file. -/
def position (p : Str) (line : Nat) : Str := p ++ if line ≠ 0 then ':' :: natDec line else []

theorem position_inj {p p' : Str} {l l' : Nat} (h : ':' ∉ p) (h' : ':' ∉ p') (e : position p l = position p' l') : p = p' ∧ l = l' := by
  unfold position at e
  by_cases h1 : l = 0 <;> by_cases h2 : l' = 0
  · simp [h1, h2] at e; exact ⟨e, by omega⟩
  · simp only [h1, h2, ne_eq, not_true_eq_false, not_false_eq_true, if_true, if_false, List.append_nil] at e
    exact absurd e.symm (no_cut h)
  · simp only [h1, h2, ne_eq, not_true_eq_false, not_false_eq_true, if_true, if_false, List.append_nil] at e
    exact absurd e (no_cut h')
  · simp only [h1, h2, ne_eq, not_false_eq_true, if_true] at e
    obtain ⟨e1, e2⟩ := cut h h' e
    exact ⟨e1, natDec_injective e2⟩

theorem mem_position {p : Str} {l : Nat} {c : Char} (h : c ∉ p) (h1 : c ≠ ':') (h2 : IsDec c = false) : c ∉ position p l := by
  unfold position
  split <;> simp [h, h1, natDec_dec h2]

theorem pythonFrame_none {f : PythonFrame} (h : f.fileName = none) :
    pythonFrame f = ' ' :: bracketed f.specialFunction (f.functionName.getD c!"??") := by
  unfold pythonFrame; rw [h]; rfl

theorem pythonFrame_some {f : PythonFrame} {p : Str} (h : f.fileName = some p) :
    pythonFrame f = '[' :: (position (bracketed f.specialFile p) f.fileLine ++ ']' :: ' ' ::
      bracketed f.specialFunction (f.functionName.getD c!"??")) := by
  unfold pythonFrame position; rw [h]; simp

/-- C76: what is printed for a Python frame: file and line in brackets, and the function; special names have angle brackets. -/
theorem C76_python_frame (f : PythonFrame) (p n : Str) (hp : f.fileName = some p) (hn : f.functionName = some n) :
    (f.specialFile = false → f.specialFunction = false → 0 < f.fileLine → pythonFrame f = c!"[" ++ p ++ c!":" ++ natDec f.fileLine ++ c!"] " ++ n) ∧
    (f.specialFile = false → f.specialFunction = true → 0 < f.fileLine →
      pythonFrame f = c!"[" ++ p ++ c!":" ++ natDec f.fileLine ++ c!"] <" ++ n ++ c!">") ∧
    (f.specialFile = true → f.specialFunction = true → 0 < f.fileLine →
      pythonFrame f = c!"[<" ++ p ++ c!">:" ++ natDec f.fileLine ++ c!"] <" ++ n ++ c!">") ∧
    (f.specialFile = true → f.specialFunction = false → 0 < f.fileLine →
      pythonFrame f = c!"[<" ++ p ++ c!">:" ++ natDec f.fileLine ++ c!"] " ++ n) := by
  rw [pythonFrame_some hp, hn]
  unfold position bracketed
  refine ⟨?_, ?_, ?_, ?_⟩ <;> intro h1 h2 h3 <;> have h4 : f.fileLine ≠ 0 := by omega
  all_goals simp [h1, h2, h4]

/-- C79: the text of a Python frame identifies file, line and function. -/
theorem C79_python_frame (f g : PythonFrame) (hf : PythonPlain f) (hg : PythonPlain g) (e : pythonFrame f = pythonFrame g) :
    pythonShown f = pythonShown g := by
  have fin : bracketed f.specialFunction (f.functionName.getD c!"??") = bracketed g.specialFunction (g.functionName.getD c!"??") →
      f.specialFunction = g.specialFunction ∧ f.functionName = g.functionName := by
    intro e
    obtain ⟨e1, e2⟩ := bracketed_inj hf.printed.2 hg.printed.2 e
    refine ⟨e1, ?_⟩
    cases h1 : f.functionName <;> cases h2 : g.functionName <;> rw [h1, h2] at e2
    · exact absurd e2.symm (hg.name _ h2).2.1
    · exact absurd e2 (hf.name _ h1).2.1
    · exact congrArg some e2
  cases h1 : f.fileName with
  | none =>
    rw [pythonFrame_none h1] at e
    cases h2 : g.fileName with
    | none =>
      rw [pythonFrame_none h2] at e
      obtain ⟨e1, e2⟩ := fin (List.cons.inj e).2
      obtain ⟨a1, a2⟩ := hf.noFile h1
      obtain ⟨b1, b2⟩ := hg.noFile h2
      unfold pythonShown
      rw [h1, h2, e1, e2, a1, a2, b1, b2]
    | some p => rw [pythonFrame_some h2] at e; cases e
  | some p =>
    rw [pythonFrame_some h1] at e
    cases h2 : g.fileName with
    | none => rw [pythonFrame_none h2] at e; cases e
    | some q =>
      rw [pythonFrame_some h2] at e
      obtain ⟨a1, a2, a3, a4⟩ := hf.file p h1
      obtain ⟨b1, b2, b3, b4⟩ := hg.file q h2
      obtain ⟨e1, e2⟩ := cut (mem_position (by rw [mem_bracketed (by decide) (by decide)]; exact a1) (by decide) (by decide))
        (mem_position (by rw [mem_bracketed (by decide) (by decide)]; exact b1) (by decide) (by decide)) (List.cons.inj e).2
      obtain ⟨e3, e4⟩ := position_inj (by rw [mem_bracketed (by decide) (by decide)]; exact a2)
        (by rw [mem_bracketed (by decide) (by decide)]; exact b2) e1
      obtain ⟨e5, e6⟩ := bracketed_inj a4 b4 e3
      obtain ⟨e7, e8⟩ := fin (List.cons.inj e2).2
      unfold pythonShown
      rw [h1, h2, e4, e5, e6, e7, e8]

theorem pythonFrame_line {f : PythonFrame} (h : PythonPlain f) : '\n' ∉ pythonFrame f := by
  have hb : '\n' ∉ bracketed f.specialFunction (f.functionName.getD c!"??") := by
    rw [mem_bracketed (by decide) (by decide)]; exact h.printed.1
  cases h1 : f.fileName with
  | none => rw [pythonFrame_none h1]; simp [hb]
  | some p =>
    have := mem_position (l := f.fileLine) (p := bracketed f.specialFile p) (c := '\n')
      (by rw [mem_bracketed (by decide) (by decide)]; exact (h.file p h1).2.2.1) (by decide) (by decide)
    rw [pythonFrame_some h1]
    simp [hb, this]

/-- C79: Python stack traces with the same short text have the same files, lines and functions. -/
theorem C79_python (t u : PythonTrace) (ht : ∀ f ∈ t.frames, PythonPlain f) (hu : ∀ f ∈ u.frames, PythonPlain f)
    (e : pythonText t 0 = pythonText u 0) : t.frames.map pythonShown = u.frames.map pythonShown := by
  rw [(C76_total 0).2.1 t, (C76_total 0).2.1 u] at e
  have e' := Option.some.inj (Out.ok.inj e)
  have hp : ∀ n, printed 0 n = n := fun n => rfl
  rw [hp, hp, List.take_length, List.take_length] at e'
  exact shown_inj (fun f => pythonFrame_line) C79_python_frame ht hu e'

example : PythonPlain { specialFile := true, fileName := some c!"string", fileLine := 1, specialFunction := true, functionName := some c!"module" } :=
  ⟨by rintro s ⟨⟩; exact ⟨by decide, by decide, by decide, nofun⟩, nofun, by rintro s ⟨⟩; exact ⟨by decide, by decide, nofun⟩⟩

/-! ## Ruby -/

/-- A Ruby frame whose function is named like a Ruby function. -/
structure RubyPlain (f : RubyFrame) : Prop where
  file : ∀ p, f.fileName = some p → ':' ∉ p ∧ '\n' ∉ p
  noFile : f.fileName = none → f.fileLine = 0
  name : ∀ n, f.functionName = some n → n ≠ [] ∧ '\n' ∉ n ∧ ' ' ∉ n ∧ n ≠ c!"??" ∧ n ≠ c!"rescue" ∧ n ≠ c!"block" ∧ Ordinary f.specialFunction n

/-- The last part of the text, after the levels. -/
def rubyRest (f : RubyFrame) : Str :=
  bracketed f.specialFunction (f.functionName.getD c!"??") ++
  match f.fileName with
  | some p => c!" in " ++ position p f.fileLine
  | none => []

/-- The text of the block level. -/
def blockText (n : Nat) : Str :=
  if n = 1 then c!"block in " else if n > 1 then c!"block (" ++ natDec n ++ c!" levels) in " else []

theorem rubyFrame_eq (f : RubyFrame) : rubyFrame f = rescueText f.rescueLevel ++ (blockText f.blockLevel ++ rubyRest f) := by
  unfold rubyFrame blockText rubyRest position
  cases f.fileName <;> simp

theorem RubyPlain.printed {f : RubyFrame} (h : RubyPlain f) :
    f.functionName.getD c!"??" ≠ [] ∧ '\n' ∉ f.functionName.getD c!"??" ∧ ' ' ∉ f.functionName.getD c!"??" ∧
      f.functionName.getD c!"??" ≠ c!"rescue" ∧ f.functionName.getD c!"??" ≠ c!"block" ∧
      Ordinary f.specialFunction (f.functionName.getD c!"??") := by
  cases hn : f.functionName with
  | none => exact ⟨by decide, by decide, by decide, by decide, by decide, fun _ ⟨x, hx⟩ => by cases hx⟩
  | some n =>
    obtain ⟨h1, h2, h3, h4, h5, h6, h7⟩ := h.name n hn
    exact ⟨h1, h2, h3, h5, h6, h7⟩

theorem bracketed_ne {s : Bool} {n w : Str} (h : n ≠ w) (hw : ∀ x, w ≠ '<' :: x) : bracketed s n ≠ w := by
  cases s
  · simpa [bracketed] using h
  · intro e; exact hw (n ++ c!">") (by rw [← e]; simp [bracketed])

/-- The rest does not begin like a level. -/
theorem rubyRest_first {f : RubyFrame} (h : RubyPlain f) (w x : Str) (hb : ' ' ∉ w) (h1 : f.functionName.getD c!"??" ≠ w) (h2 : ∀ x, w ≠ '<' :: x) :
    rubyRest f ≠ w ++ ' ' :: x := by
  have hn : ' ' ∉ bracketed f.specialFunction (f.functionName.getD c!"??") := by
    rw [mem_bracketed (by decide) (by decide)]; exact h.printed.2.2.1
  have hne := bracketed_ne (s := f.specialFunction) h1 h2
  unfold rubyRest
  generalize bracketed f.specialFunction (f.functionName.getD c!"??") = b at *
  cases f.fileName with
  | none => dsimp only; rw [List.append_nil]; exact fun e => no_cut hn e.symm
  | some p => exact fun e => hne (cut (b := c!"in " ++ position p f.fileLine) hn hb e).1

theorem rubyRest_inj {f g : RubyFrame} (hf : RubyPlain f) (hg : RubyPlain g) (e : rubyRest f = rubyRest g) :
    f.specialFunction = g.specialFunction ∧ f.functionName = g.functionName ∧ f.fileName = g.fileName ∧ f.fileLine = g.fileLine := by
  have hn : ' ' ∉ bracketed f.specialFunction (f.functionName.getD c!"??") := by
    rw [mem_bracketed (by decide) (by decide)]; exact hf.printed.2.2.1
  have hn' : ' ' ∉ bracketed g.specialFunction (g.functionName.getD c!"??") := by
    rw [mem_bracketed (by decide) (by decide)]; exact hg.printed.2.2.1
  unfold rubyRest at e
  have e' : (bracketed f.specialFunction (f.functionName.getD c!"??") ++ match f.fileName.map (position · f.fileLine) with | some m => c!" in " ++ m | none => []) =
      bracketed g.specialFunction (g.functionName.getD c!"??") ++ match g.fileName.map (position · g.fileLine) with | some m => c!" in " ++ m | none => [] := by
    cases h1 : f.fileName <;> cases h2 : g.fileName <;> rw [h1, h2] at e <;> exact e
  obtain ⟨e1, e2⟩ := nameModule_inj hn hn' e'
  obtain ⟨e3, e4⟩ := bracketed_inj hf.printed.2.2.2.2.2 hg.printed.2.2.2.2.2 e1
  have e5 : f.functionName = g.functionName := by
    cases h1 : f.functionName <;> cases h2 : g.functionName <;> rw [h1, h2] at e4
    · exact absurd e4.symm (hg.name _ h2).2.2.2.1
    · exact absurd e4 (hf.name _ h1).2.2.2.1
    · exact congrArg some e4
  refine ⟨e3, e5, ?_⟩
  cases h1 : f.fileName <;> cases h2 : g.fileName <;> rw [h1, h2] at e2
  · exact ⟨rfl, by rw [hf.noFile h1, hg.noFile h2]⟩
  · cases e2
  · cases e2
  · obtain ⟨e6, e7⟩ := position_inj (hf.file _ h1).1 (hg.file _ h2).1 (Option.some.inj e2)
    exact ⟨congrArg some e6, e7⟩

/-- Every block text but the empty one begins with "block ". -/
theorem blockText_cases (n : Nat) : (n = 0 ∧ blockText n = []) ∨ (n = 1 ∧ blockText n = c!"block in ") ∨
    (1 < n ∧ blockText n = c!"block (" ++ natDec n ++ c!" levels) in ") := by
  rcases Nat.lt_trichotomy n 1 with h | h | h
  · left
    have : n = 0 := by omega
    subst this; exact ⟨rfl, rfl⟩
  · right; left; subst h; exact ⟨rfl, rfl⟩
  · right; right
    refine ⟨h, ?_⟩
    unfold blockText
    rw [if_neg (by omega), if_pos h]

theorem block_inj {f g : RubyFrame} (hf : RubyPlain f) (hg : RubyPlain g) {a b : Nat}
    (e : blockText a ++ rubyRest f = blockText b ++ rubyRest g) : a = b ∧ rubyRest f = rubyRest g := by
  have nf : ∀ x, rubyRest f ≠ c!"block" ++ ' ' :: x := fun x => rubyRest_first hf _ x (by decide) hf.printed.2.2.2.2.1 (fun x h => by cases h)
  have ng : ∀ x, rubyRest g ≠ c!"block" ++ ' ' :: x := fun x => rubyRest_first hg _ x (by decide) hg.printed.2.2.2.2.1 (fun x h => by cases h)
  rcases blockText_cases a with ⟨ha, ta⟩ | ⟨ha, ta⟩ | ⟨ha, ta⟩ <;> rcases blockText_cases b with ⟨hb, tb⟩ | ⟨hb, tb⟩ | ⟨hb, tb⟩ <;> rw [ta, tb] at e
  · exact ⟨by omega, e⟩
  · exact absurd e (nf (c!"in " ++ rubyRest g))
  · exact absurd (e.trans (by simp)) (nf (c!"(" ++ natDec b ++ c!" levels) in " ++ rubyRest g))
  · exact absurd e.symm (ng (c!"in " ++ rubyRest f))
  · exact ⟨by omega, List.append_cancel_left e⟩
  · simp at e
  · exact absurd (e.symm.trans (by simp)) (ng (c!"(" ++ natDec a ++ c!" levels) in " ++ rubyRest f))
  · simp at e
  · have e' : natDec a ++ ' ' :: (c!"levels) in " ++ rubyRest f) = natDec b ++ ' ' :: (c!"levels) in " ++ rubyRest g) := by simpa using e
    obtain ⟨e1, e2⟩ := cut (natDec_dec (by decide)) (natDec_dec (by decide)) e'
    exact ⟨natDec_injective e1, List.append_cancel_left e2⟩

theorem rescue_inj {f g : RubyFrame} (hf : RubyPlain f) (hg : RubyPlain g) {x y : Nat} : ∀ {a b : Nat},
    rescueText a ++ (blockText x ++ rubyRest f) = rescueText b ++ (blockText y ++ rubyRest g) →
      a = b ∧ blockText x ++ rubyRest f = blockText y ++ rubyRest g := by
  have no : ∀ {f : RubyFrame} {x : Nat} (_ : RubyPlain f) (z : Str), blockText x ++ rubyRest f ≠ c!"rescue" ++ ' ' :: z := by
    intro f x hf z
    rcases blockText_cases x with ⟨ha, ta⟩ | ⟨ha, ta⟩ | ⟨ha, ta⟩ <;> rw [ta]
    · exact rubyRest_first hf _ z (by decide) hf.printed.2.2.2.1 (fun x h => by cases h)
    · intro e; simp at e
    · intro e; simp at e
  intro a
  induction a with
  | zero =>
    intro b e
    cases b with
    | zero => exact ⟨rfl, e⟩
    | succ b => exact absurd (e.trans (by simp [rescueText])) (no hf (c!"in " ++ (rescueText b ++ (blockText y ++ rubyRest g))))
  | succ a ih =>
    intro b e
    cases b with
    | zero => exact absurd (e.symm.trans (by simp [rescueText])) (no hg (c!"in " ++ (rescueText a ++ (blockText x ++ rubyRest f))))
    | succ b =>
      rw [rescueText, rescueText, List.append_assoc, List.append_assoc] at e
      obtain ⟨e1, e2⟩ := ih (List.append_cancel_left e)
      exact ⟨by rw [e1], e2⟩

/-- C76: what is printed for a Ruby frame: the levels of rescue and of blocks, the function, file and line. -/
theorem C76_ruby_frame (f : RubyFrame) (p n : Str) (hp : f.fileName = some p) (hn : f.functionName = some n) (hl : 0 < f.fileLine) :
    (f.rescueLevel = 0 → f.blockLevel = 0 → f.specialFunction = false → rubyFrame f = n ++ c!" in " ++ p ++ c!":" ++ natDec f.fileLine) ∧
    (f.rescueLevel = 0 → f.blockLevel = 0 → f.specialFunction = true →
      rubyFrame f = c!"<" ++ n ++ c!"> in " ++ p ++ c!":" ++ natDec f.fileLine) ∧
    (f.rescueLevel = 0 → f.blockLevel = 1 → f.specialFunction = false →
      rubyFrame f = c!"block in " ++ n ++ c!" in " ++ p ++ c!":" ++ natDec f.fileLine) ∧
    (f.rescueLevel = 0 → 1 < f.blockLevel → f.specialFunction = false →
      rubyFrame f = c!"block (" ++ natDec f.blockLevel ++ c!" levels) in " ++ n ++ c!" in " ++ p ++ c!":" ++ natDec f.fileLine) ∧
    (∀ k, f.rescueLevel = k + 1 → rubyFrame f = c!"rescue in " ++ rubyFrame { f with rescueLevel := k }) := by
  have h0 : f.fileLine ≠ 0 := by omega
  refine ⟨?_, ?_, ?_, ?_, ?_⟩
  · intro h1 h2 h3
    simp [rubyFrame_eq, rubyRest, position, bracketed, blockText, rescueText, hp, hn, h0, h1, h2, h3]
  · intro h1 h2 h3
    simp [rubyFrame_eq, rubyRest, position, bracketed, blockText, rescueText, hp, hn, h0, h1, h2, h3]
  · intro h1 h2 h3
    simp [rubyFrame_eq, rubyRest, position, bracketed, blockText, rescueText, hp, hn, h0, h1, h2, h3]
  · intro h1 h2 h3
    have h4 : f.blockLevel ≠ 1 := by omega
    simp [rubyFrame_eq, rubyRest, position, bracketed, blockText, rescueText, hp, hn, h0, h1, h2, h3, h4]
  · intro k hk
    rw [rubyFrame_eq, rubyFrame_eq, hk, rescueText, List.append_assoc]
    rfl

/-- C79: the text of a Ruby frame identifies the frame. -/
theorem C79_ruby_frame (f g : RubyFrame) (hf : RubyPlain f) (hg : RubyPlain g) (e : rubyFrame f = rubyFrame g) : f = g := by
  rw [rubyFrame_eq, rubyFrame_eq] at e
  obtain ⟨e1, e⟩ := rescue_inj hf hg e
  obtain ⟨e2, e⟩ := block_inj hf hg e
  obtain ⟨e3, e4, e5, e6⟩ := rubyRest_inj hf hg e
  obtain ⟨_, _, _, _, _, _⟩ := f
  obtain ⟨_, _, _, _, _, _⟩ := g
  subst e1 e2 e3 e4 e5 e6
  rfl

theorem rubyFrame_line {f : RubyFrame} (h : RubyPlain f) : '\n' ∉ rubyFrame f := by
  have hr : ∀ n, '\n' ∉ rescueText n := by
    intro n
    induction n with
    | zero => simp [rescueText]
    | succ n ih => simp [rescueText, ih]
  have hb : ∀ n, '\n' ∉ blockText n := by
    intro n
    have := natDec_dec (n := n) (c := '\n') (by decide)
    rcases blockText_cases n with ⟨_, e⟩ | ⟨_, e⟩ | ⟨_, e⟩ <;> rw [e] <;> simp [this]
  have hn : '\n' ∉ bracketed f.specialFunction (f.functionName.getD c!"??") := by
    rw [mem_bracketed (by decide) (by decide)]; exact h.printed.2.1
  have ht : '\n' ∉ rubyRest f := by
    unfold rubyRest
    cases hp : f.fileName with
    | none => simpa using hn
    | some p =>
      have := mem_position (l := f.fileLine) (h.file p hp).2 (by decide) (by decide)
      simp [hn, this]
  rw [rubyFrame_eq]
  simp [hr, hb, ht]

/-- C79: Ruby stack traces with the same short text have the same frames. -/
theorem C79_ruby (t u : RubyTrace) (ht : ∀ f ∈ t.frames, RubyPlain f) (hu : ∀ f ∈ u.frames, RubyPlain f)
    (e : rubyText t 0 = rubyText u 0) : t.frames = u.frames := by
  rw [(C76_total 0).2.2.1 t, (C76_total 0).2.2.1 u] at e
  have e' := Option.some.inj (Out.ok.inj e)
  have hp : ∀ n, printed 0 n = n := fun n => rfl
  rw [hp, hp, List.take_length, List.take_length] at e'
  have := shown_inj (shown := id) (fun f => rubyFrame_line) C79_ruby_frame ht hu e'
  simpa using this

example : RubyPlain { fileName := some c!"/usr/bin/will_crash", fileLine := 17, specialFunction := true, functionName := some c!"main",
                      blockLevel := 2, rescueLevel := 1 } :=
  ⟨by rintro s ⟨⟩; decide, nofun, by rintro s ⟨⟩; exact ⟨by decide, by decide, by decide, by decide, by decide, by decide, nofun⟩⟩

/-- C79 needs the conditions on the names: a function `block` in a file looks like a block. -/
theorem C79_not_block : rubyFrame { functionName := some c!"block", fileName := some c!"f" } = rubyFrame { functionName := some c!"f", blockLevel := 1 } := by
  decide +kernel

/-- C79 needs known functions in kernel oopses: an unknown function looks like a function named `??`. -/
theorem C79_not_unknown : koopsFrame {} = koopsFrame { functionName := some c!"??" } := by decide +kernel

end Satyr.Short
