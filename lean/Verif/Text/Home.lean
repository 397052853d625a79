import Verif.Text.JsLoc
import Verif.Text.RubyLines
import Verif.Text.PythonLines
import Verif.Text.JavaLines
import Verif.Gdb.Trace
import Verif.Normalize.Props
/-!
# C137: no path that is read names the user in whose home directory it is
-/
namespace Satyr.Text.Home
open Satyr.CStr Satyr.Frames

/-- A path below a home directory is below that of the user `anonymized`. -/
def Hidden (p : Str) : Prop := ∀ user rest, '/' ∉ user → p = c!"/home/" ++ user ++ '/' :: rest → user = c!"anonymized"

/-- The same for a path that may be missing. -/
def HiddenIn (p : Option Str) : Prop := ∀ q, p = some q → Hidden q

/-- The same path in the home directories of two users, or the same path. -/
def SamePath (p q : Str) : Prop :=
  p = q ∨ ∃ u v rest, '/' ∉ u ∧ '/' ∉ v ∧ p = c!"/home/" ++ u ++ '/' :: rest ∧ q = c!"/home/" ++ v ++ '/' :: rest

/-- The same for paths that may be missing. -/
def SamePathIn : Option Str → Option Str → Prop
  | none, none => True
  | some p, some q => SamePath p q
  | _, _ => False

/-! ## Proofs -/

theorem home_inj {u v r s : Str} (hu : '/' ∉ u) (hv : '/' ∉ v) (h : c!"/home/" ++ u ++ '/' :: r = c!"/home/" ++ v ++ '/' :: s) :
    u = v ∧ r = s := by
  rw [List.append_assoc, List.append_assoc] at h
  exact Java.first_unique (List.append_cancel_left h) hu hv

theorem hidden (p : Str) : Hidden (anonymizePath p) := by
  intro user rest hu h
  by_cases hh : ∃ user rest, '/' ∉ user ∧ p = c!"/home/" ++ user ++ '/' :: rest
  · obtain ⟨v, r, hv, rfl⟩ := hh
    rw [C31_replaces v r hv] at h
    exact (home_inj (u := c!"anonymized") (by decide) hu h).1.symm
  · rw [C31_keeps p hh] at h
    exact absurd ⟨user, rest, hu, h⟩ hh

theorem hiddenIn_some (p : Str) : HiddenIn (some (anonymizePath p)) := fun _ h => Option.some.inj h ▸ hidden p

theorem hiddenIn_none : HiddenIn none := fun _ h => by cases h

theorem hiddenIn_map (p : Option Str) : HiddenIn (p.map anonymizePath) := by
  cases p with
  | none => exact hiddenIn_none
  | some p => exact hiddenIn_some p

theorem same_path (p q : Str) (h : SamePath p q) : anonymizePath p = anonymizePath q := by
  rcases h with rfl | ⟨u, v, rest, hu, hv, rfl, rfl⟩
  · rfl
  · exact C31_hides_user u v rest hu hv

/-- Two paths become equal exactly if they are the same but for the name of the user, who may be called `anonymized`. -/
theorem C137_paths (p q : Str) : anonymizePath p = anonymizePath q ↔ SamePath p q := by
  refine ⟨fun h => ?_, same_path p q⟩
  by_cases hp : ∃ user rest, '/' ∉ user ∧ p = c!"/home/" ++ user ++ '/' :: rest
  · obtain ⟨u, r, hu, rfl⟩ := hp
    rw [C31_replaces u r hu] at h
    by_cases hq : ∃ user rest, '/' ∉ user ∧ q = c!"/home/" ++ user ++ '/' :: rest
    · obtain ⟨v, s, hv, rfl⟩ := hq
      rw [C31_replaces v s hv] at h
      have := List.append_cancel_left h
      subst this
      exact .inr ⟨u, v, _, hu, hv, rfl, rfl⟩
    · rw [C31_keeps q hq] at h
      exact .inr ⟨u, c!"anonymized", r, hu, by decide, rfl, h.symm⟩
  · rw [C31_keeps p hp] at h
    by_cases hq : ∃ user rest, '/' ∉ user ∧ q = c!"/home/" ++ user ++ '/' :: rest
    · obtain ⟨v, s, hv, rfl⟩ := hq
      rw [C31_replaces v s hv] at h
      exact absurd ⟨c!"anonymized", s, by decide, h⟩ hp
    · rw [C31_keeps q hq] at h
      exact .inl h

theorem same_pathIn {p q : Option Str} (h : SamePathIn p q) : p.map anonymizePath = q.map anonymizePath := by
  cases p <;> cases q
  · rfl
  · exact h.elim
  · exact h.elim
  · exact congrArg some (same_path _ _ h)

theorem map_same {A B : Type} {R : A → A → Prop} {f g : A → B} (hR : ∀ x y, R x y → f x = g y) {l m : List A} (h : List.Forall₂ R l m) :
    l.map f = m.map g := by
  induction h with
  | nil => rfl
  | cons h _ ih => rw [List.map_cons, List.map_cons, hR _ _ h, ih]

theorem lines_exist (s : Str) : ∃ l0 ls, s = joinLines l0 ls ∧ ∀ x ∈ l0 :: ls, '\n' ∉ x := by
  induction s with
  | nil => exact ⟨[], [], rfl, by simp⟩
  | cons c s ih =>
    obtain ⟨l0, ls, rfl, h⟩ := ih
    by_cases hc : c = '\n'
    · subst hc
      refine ⟨[], l0 :: ls, by simp [joinLines], ?_⟩
      intro x hx
      rcases List.mem_cons.1 hx with rfl | hx
      · simp
      · exact h x hx
    · refine ⟨c :: l0, ls, by simp [joinLines], ?_⟩
      intro x hx
      rcases List.mem_cons.1 hx with rfl | hx
      · intro hm
        rcases List.mem_cons.1 hm with e | hm
        · exact hc e.symm
        · exact h l0 (by simp) hm
      · exact h x (List.mem_cons_of_mem _ hx)

/-! ## JavaScript -/

theorem js_line {l : Str} {f : JsFrame} (h : Js.FrameLine l f) : HiddenIn f.fileName := by
  cases h <;> exact hiddenIn_some _

theorem js_frames {ls : List Str} {fs : List JsFrame} (h : Js.Frames ls fs) : ∀ f ∈ fs, HiddenIn f.fileName := by
  induction h with
  | last => simp
  | one h => intro f hf; rw [List.mem_singleton.1 hf]; exact js_line h
  | cons h _ ih =>
    intro f hf
    rcases List.mem_cons.1 hf with rfl | hf
    · exact js_line h
    · exact ih f hf

/-- C137: JavaScript. -/
theorem C137_js (s : Str) (hn : NoNul s) (t : JsTrace) (h : Js.parseText s = .ok (.inl t)) : ∀ f ∈ t.frames, HiddenIn f.fileName := by
  obtain ⟨l0, ls, rfl, hl⟩ := lines_exist s
  obtain ⟨name, fs, -, hf, rfl⟩ := (Js.C112_js_read l0 ls hl hn t).1 h
  exact js_frames hf

/-- C137: the stack traces that V8 prints for two users are the same, if the calls are. -/
theorem C137_same_js (name message message' : Str) (fs gs : List (JsFrame × Str × Str)) (hn : name ≠ []) (hn1 : ':' ∉ name) (hn2 : '\n' ∉ name)
    (hm : '\n' ∉ message) (hm' : '\n' ∉ message') (hf : ∀ x ∈ fs, Js.Clean x.1 x.2.1 ∧ Js.printFrame x.1 = .ok x.2.2)
    (hg : ∀ x ∈ gs, Js.Clean x.1 x.2.1 ∧ Js.printFrame x.1 = .ok x.2.2)
    (h : List.Forall₂ (fun x y => SamePath x.2.1 y.2.1 ∧ { y.1 with fileName := x.1.fileName } = x.1) fs gs) :
    ∃ t, Js.parseTrace (Js.traceText name message (fs.map (·.2.2))) = .ok (some (t, [])) ∧
      Js.parseTrace (Js.traceText name message' (gs.map (·.2.2))) = .ok (some (t, [])) := by
  refine ⟨_, Js.C69_read_partial name message fs hn hn1 hn2 hm hf, ?_⟩
  rw [Js.C69_read_partial name message' gs hn hn1 hn2 hm' hg]
  rw [map_same (g := fun x : JsFrame × Str × Str => { x.1 with fileName := some (anonymizePath x.2.1) }) ?_ h]
  rintro ⟨x, fx, tx⟩ ⟨y, fy, ty⟩ ⟨h1, h2⟩
  dsimp only at h1 h2 ⊢
  rw [same_path _ _ h1, ← h2]

/-! ## Ruby -/

theorem ruby_frame {s t : Str} {f : RubyFrame} (h : Ruby.FrameText s f t) : HiddenIn f.fileName := by
  obtain ⟨file, _, _, _, _, _, _, _, _, _, _, _, _, _, _, _, rfl⟩ := h
  exact hiddenIn_some _

theorem ruby_lines {s t : Str} {fs : List RubyFrame} (h : Ruby.Lines s fs t) : ∀ f ∈ fs, HiddenIn f.fileName := by
  induction h with
  | done => simp
  | more _ _ _ _ _ h _ ih =>
    intro f hf
    rcases List.mem_cons.1 hf with rfl | hf
    · exact ruby_frame h
    · exact ih f hf
  | last _ _ _ h _ => intro f hf; rw [List.mem_singleton.1 hf]; exact ruby_frame h

/-- C137: Ruby. -/
theorem C137_ruby (s : Str) (t : RubyTrace) (rest : Str) (h : Ruby.parse s = .ok (some (t, rest))) : ∀ f ∈ t.frames, HiddenIn f.fileName := by
  obtain ⟨f, m, c, u, fs, h1, -, -, -, -, -, h2, rfl⟩ := (Ruby.C53_exact s t rest).1 h
  intro g hg
  rcases List.mem_cons.1 hg with rfl | hg
  · exact ruby_frame h1
  · exact ruby_lines h2 g hg

/-- C137: the backtraces that Ruby prints for two users are the same, if the calls are. -/
theorem C137_same_ruby (p q : Ruby.Place) (message message' cls : Str) (ps qs : List Ruby.Place) (hp : ∀ x ∈ p :: ps, x.WF)
    (hq : ∀ x ∈ q :: qs, x.WF) (hm : '\t' ∉ message) (hm' : '\t' ∉ message') (hc : cls ≠ []) (hc1 : '(' ∉ cls) (hc2 : '\t' ∉ cls)
    (h : List.Forall₂ (fun x y => SamePath x.file y.file ∧ { y with file := x.file } = x) (p :: ps) (q :: qs)) :
    ∃ t, Ruby.parse (Ruby.traceText p message cls ps) = .ok (some (t, [])) ∧
      Ruby.parse (Ruby.traceText q message' cls qs) = .ok (some (t, [])) := by
  refine ⟨_, Ruby.C53_read_partial p message cls ps hp hm hc hc1 hc2, ?_⟩
  rw [Ruby.C53_read_partial q message' cls qs hq hm' hc hc1 hc2]
  rw [map_same (g := Ruby.Place.frame) ?_ h]
  rintro x y ⟨h1, h2⟩
  unfold Ruby.Place.frame
  rw [same_path _ _ h1, ← h2]

/-! ## Python -/

theorem python_frames {s t : Str} {fs : List PythonFrame} (h : Python.Frames s fs t) : ∀ f ∈ fs, HiddenIn f.fileName := by
  induction h with
  | done => simp
  | more _ _ _ _ _ h _ ih =>
    intro f hf
    rcases List.mem_cons.1 hf with rfl | hf
    · obtain ⟨_, _, _, _, _, _, _, _, _, _, _, _, _, _, _, _, _, _, _, _, rfl⟩ := h
      exact hiddenIn_some _
    · exact ih f hf

/-- C137: Python. -/
theorem C137_python (s : Str) (t : PythonTrace) (rest : Str) (h : Python.parse s = .ok (some (t, rest))) :
    ∀ f ∈ t.frames, HiddenIn f.fileName := by
  obtain ⟨u, fs, name, -, h1, -, -, -, -, -, rfl⟩ := (Python.C52_texts s t rest).1 h
  exact fun f hf => python_frames h1 f (List.mem_reverse.1 hf)

/-- C137: the tracebacks that Python prints for two users are the same, if the calls are. -/
theorem C137_same_python (es gs : List Python.Entry) (name tail tail' : Str) (hes : es ≠ []) (he : ∀ e ∈ es, e.WF) (hg : ∀ e ∈ gs, e.WF)
    (hn : name ≠ []) (hp : peek name ∉ c!" ^~") (h1 : ':' ∉ name) (h2 : '\n' ∉ name) (ht : tail = [] ∨ peek tail ∈ c!":\n")
    (ht' : tail' = [] ∨ peek tail' ∈ c!":\n")
    (h : List.Forall₂ (fun x y : Python.Entry => SamePath x.file.text y.file.text ∧ x.file.special = y.file.special ∧ x.line = y.line ∧
      x.function = y.function ∧ x.source = y.source) es gs) :
    ∃ t, Python.parse (Python.header ++ (es.flatMap Python.Entry.text ++ (name ++ tail))) = .ok (some (t, tail)) ∧
      Python.parse (Python.header ++ (gs.flatMap Python.Entry.text ++ (name ++ tail'))) = .ok (some (t, tail')) := by
  refine ⟨_, Python.C52_read_partial [] es name tail hes he hn hp h1 h2 ht (fun _ _ _ => Nat.zero_le _), ?_⟩
  have hgs : gs ≠ [] := by
    rintro rfl
    cases h
    exact hes rfl
  have := Python.C52_read_partial [] gs name tail' hgs hg hn hp h1 h2 ht' (fun _ _ _ => Nat.zero_le _)
  rw [List.nil_append] at this
  rw [this, map_same (g := Python.Entry.frame) ?_ h]
  rintro x y ⟨h1, h2, h3, h4, h5⟩
  unfold Python.Entry.frame
  rw [same_path _ _ h1, h2, h3, h4, h5]

/-! ## Java -/

theorem java_address {stop : Char} {x : Str} {p : Option Str} (h : Java.AddressText stop x p) : HiddenIn p := by
  obtain ⟨z, a, b, -, -, rfl⟩ := h
  split
  · exact hiddenIn_none
  · exact hiddenIn_some _

theorem java_url {x : Str} {p : Option Str} (h : Java.UrlText x p) : HiddenIn p := by
  cases h with
  | absent => exact hiddenIn_none
  | plain => exact hiddenIn_none
  | jarPlain => exact hiddenIn_none
  | jar _ _ h => exact java_address h
  | url _ _ _ h => exact java_address h

theorem java_source {x : Str} {n : Bool} {p : Option Str} {k : Nat} {u : Str} (h : Java.SourceText x n p k u) : HiddenIn p := by
  cases h with
  | absent => exact hiddenIn_none
  | source =>
    split
    · exact hiddenIn_none
    · exact hiddenIn_some _

theorem java_head {s r : Str} {e : JavaFrame} (h : Java.HeadText s e r) : HiddenIn e.fileName ∧ HiddenIn e.classPath := by
  obtain ⟨_, _, _, _, _, _, _, _, _, _, rfl⟩ := h
  exact ⟨hiddenIn_none, hiddenIn_none⟩

theorem java_calls {s r : Str} {fs : List JavaFrame} (h : Java.CallsText s fs r) : ∀ f ∈ fs, HiddenIn f.fileName ∧ HiddenIn f.classPath := by
  induction h with
  | empty => simp
  | mark => simp
  | call _ h _ ih =>
    intro f hf
    rcases List.mem_cons.1 hf with rfl | hf
    · obtain ⟨_, _, _, _, _, _, _, _, _, ⟨_, _, _, _, _, _, _, _, h1, h2, rfl⟩, _⟩ := h
      exact ⟨java_source h1, java_url h2⟩
    · exact ih f hf

theorem java_chain {s r : Str} {fs : List JavaFrame} (h : Java.ChainText s fs r) : ∀ f ∈ fs, HiddenIn f.fileName ∧ HiddenIn f.classPath := by
  have one : ∀ {s r c : Str} {e : JavaFrame} {fs : List JavaFrame}, Java.HeadText s e r → Java.CallsText r fs c →
      ∀ f ∈ e :: fs, HiddenIn f.fileName ∧ HiddenIn f.classPath := by
    intro s r c e fs h1 h2 f hf
    rcases List.mem_cons.1 hf with rfl | hf
    · exact java_head h1
    · exact java_calls h2 f hf
  induction h with
  | all h1 h2 => exact one h1 h2
  | more h1 h2 => exact one h1 h2
  | cause h1 h2 _ ih =>
    intro f hf
    rcases List.mem_append.1 hf with hf | hf
    · exact ih f hf
    · exact one h1 h2 f hf
  | moreCause h1 h2 _ _ _ ih =>
    intro f hf
    rcases List.mem_append.1 hf with hf | hf
    · exact ih f hf
    · exact one h1 h2 f hf

/-- C137: Java, for the name of the source file and for the file of the class. -/
theorem C137_java (s : Str) (hn : NoNul s) (t : JavaThread) (rest : Str) (h : Java.parseThread s = .ok (some (t, rest))) :
    ∀ f ∈ t.frames, HiddenIn f.fileName ∧ HiddenIn f.classPath := by
  rcases (Java.C70_exact s hn t rest).1 h with ⟨_, _, _, _, _, _, h⟩ | ⟨_, _, h⟩ <;> exact java_chain h

/-- C137: the stack traces that are printed for two users are the same, if the calls are. -/
theorem C137_same_java (thread name : Str) (msg : Option Str) (fs gs : List JavaFrame) (h1 : '"' ∉ thread) (h2 : '\n' ∉ thread)
    (hne : name ≠ []) (hb : NoSpace name) (hc : ':' ∉ name) (hm : ∀ m, msg = some m → m ≠ [] ∧ isSpace (peek m) = false ∧ '\n' ∉ m)
    (hf : ∀ f ∈ fs, Java.Clean f) (hg : ∀ f ∈ gs, Java.Clean f)
    (h : List.Forall₂ (fun x y : JavaFrame => SamePathIn x.fileName y.fileName ∧ SamePathIn x.classPath y.classPath ∧
      { y with fileName := x.fileName, classPath := x.classPath } = x) fs gs) :
    ∃ t, Java.parseThread (Java.printThread ⟨some thread, { name := some name, isException := true, message := msg } :: fs⟩) = .ok (some (t, [])) ∧
      Java.parseThread (Java.printThread ⟨some thread, { name := some name, isException := true, message := msg } :: gs⟩) = .ok (some (t, [])) := by
  refine ⟨_, Java.C70_print_partial thread name msg fs h1 h2 hne hb hc hm hf, ?_⟩
  rw [Java.C70_print_partial thread name msg gs h1 h2 hne hb hc hm hg]
  rw [map_same (g := fun f : JavaFrame => { f with fileName := f.fileName.map anonymizePath, classPath := f.classPath.map anonymizePath }) ?_ h]
  rintro x y ⟨h1, h2, h3⟩
  rw [same_pathIn h1, same_pathIn h2, ← h3]

/-! ## Core dumps -/

theorem core_renamed {ks r : List (Threads.Node Normalize.CoreFrame)}
    (h : List.Forall₂ (fun k n => n.id = k.id ∧ Normalize.CoreRenamed k.val n.val) ks r) : ∀ n ∈ r, HiddenIn n.val.fileName := by
  induction h with
  | nil => simp
  | cons h _ ih =>
    intro n hn
    rcases List.mem_cons.1 hn with rfl | hn
    · rw [h.2.1]
      exact hiddenIn_map _
    · exact ih n hn

/-- C137: the frames of a core stack trace, once it is normalized. -/
theorem C137_core (t : List (Threads.Node Normalize.CoreFrame)) (h : Threads.WF t) (r : List (Threads.Node Normalize.CoreFrame))
    (hr : Normalize.normalizeCore t = .ok r) : ∀ n ∈ r, HiddenIn n.val.fileName := by
  obtain ⟨r', ks, h1, -, h2⟩ := Normalize.C14_core t h
  rw [hr] at h1
  cases h1
  exact core_renamed h2

/-! ## What is missing -/

/-- Not C137: the source files of a gdb stack trace keep the name of the user. -/
theorem C137_not_gdb : ∃ s t rest, Gdb.parseTrace s = .ok (some (t, rest)) ∧ ∃ th ∈ t.threads, ∃ f ∈ th.frames, ¬ HiddenIn f.sourceFile := by
  refine ⟨c!"\nThread 1 (LWP 5):\n#0  f () at /home/jo/a.c:1\n", _, _, by with_unfolding_all rfl, _, List.mem_singleton.2 rfl, _,
    List.mem_singleton.2 rfl, ?_⟩
  intro h
  exact absurd (h c!"/home/jo/a.c" rfl c!"jo" c!"a.c" (by decide) rfl) (by decide)

/-- Not C137: the file of a class keeps the name of the user if there are slashes before it. -/
theorem C137_not_url : ∃ s t rest, Java.parseThread s = .ok (some (t, rest)) ∧ ∃ f ∈ t.frames, f.classPath = some c!"///home/jo/x.jar" :=
  ⟨c!"E\n\tat f(F.java:1) [file:///home/jo/x.jar]\n", _, _, by with_unfolding_all rfl, _, List.mem_cons_of_mem _ (List.mem_singleton.2 rfl), rfl⟩

/-- The thread of a program in the home directory of the user. -/
def userThread (user : Str) : List (Threads.Node Normalize.CoreFrame) :=
  [⟨0, { functionName := some c!"_int_free", fileName := some (c!"/home/" ++ user ++ c!"/a.out") }⟩,
   ⟨1, { functionName := some c!"main", fileName := some (c!"/home/" ++ user ++ c!"/a.out") }⟩]

/-- Not C137: the core stack traces of the same program of two users can have different frames after normalization, as the name of
the user can be mistaken for that of a library. -/
theorem C137_not_core : ∃ r r', Normalize.normalizeCore (userThread c!"jo") = .ok r ∧ Normalize.normalizeCore (userThread c!"libcarl") = .ok r' ∧
    r.length = 2 ∧ r'.length = 1 := by
  refine ⟨_, _, by with_unfolding_all rfl, by with_unfolding_all rfl, by with_unfolding_all rfl, by with_unfolding_all rfl⟩

/-! ## Examples -/

example : SamePath c!"/home/jo/a.js" c!"/home/al/a.js" := .inr ⟨c!"jo", c!"al", c!"a.js", by decide, by decide, rfl, rfl⟩
example : ¬ SamePath c!"/home/jo/a.js" c!"/home/al/b.js" := by
  rw [← C137_paths]
  decide +kernel
example : ¬ Hidden c!"/home/jo/a.js" := fun h => absurd (h c!"jo" c!"a.js" (by decide) rfl) (by decide)
example : Hidden c!"/usr/home/jo/a.js" := by rw [show c!"/usr/home/jo/a.js" = anonymizePath c!"/usr/home/jo/a.js" by decide +kernel]; exact hidden _

example : ∃ t, Js.parseTrace (Js.traceText c!"E" c!"of jo" [c!"at f (/home/jo/a.js:1:2)"]) = .ok (some (t, [])) ∧
    Js.parseTrace (Js.traceText c!"E" c!"of al" [c!"at f (/home/al/a.js:1:2)"]) = .ok (some (t, [])) := by
  refine C137_same_js c!"E" _ _ [(⟨some c!"/home/jo/a.js", 1, 2, some c!"f"⟩, c!"/home/jo/a.js", c!"at f (/home/jo/a.js:1:2)")]
    [(⟨some c!"/home/al/a.js", 1, 2, some c!"f"⟩, c!"/home/al/a.js", c!"at f (/home/al/a.js:1:2)")] (by decide) (by decide) (by decide)
    (by decide) (by decide) ?_ ?_ (.cons ⟨.inr ⟨c!"jo", c!"al", c!"a.js", by decide, by decide, rfl, rfl⟩, rfl⟩ .nil)
  all_goals
    intro x hx
    rw [List.mem_singleton.1 hx]
    refine ⟨⟨rfl, by decide, by decide, by decide, by decide, by rintro ⟨⟩, ?_⟩, by with_unfolding_all rfl⟩
    rintro n ⟨⟩
    exact ⟨by decide, by decide, by decide⟩

example : ∃ t, Ruby.parse (Ruby.traceText ⟨c!"/home/jo/a.rb", 1, 0, 0, false, c!"f"⟩ c!"of jo" c!"E" []) = .ok (some (t, [])) ∧
    Ruby.parse (Ruby.traceText ⟨c!"/home/al/a.rb", 1, 0, 0, false, c!"f"⟩ c!"of al" c!"E" []) = .ok (some (t, [])) := by
  refine C137_same_ruby _ _ _ _ _ [] [] ?_ ?_ (by decide) (by decide) (by decide) (by decide) (by decide)
    (.cons ⟨.inr ⟨c!"jo", c!"al", c!"a.rb", by decide, by decide, rfl, rfl⟩, rfl⟩ .nil)
  all_goals
    intro x hx
    rw [List.mem_singleton.1 hx]
    exact ⟨by decide, by decide, by decide, by decide, by decide⟩

example : ∃ t, Python.parse (Python.header ++ ([(⟨⟨false, c!"/home/jo/a.py"⟩, 1, none, none, none⟩ : Python.Entry)].flatMap Python.Entry.text ++
      (c!"E" ++ c!": of jo"))) = .ok (some (t, c!": of jo")) ∧
    Python.parse (Python.header ++ ([(⟨⟨false, c!"/home/al/a.py"⟩, 1, none, none, none⟩ : Python.Entry)].flatMap Python.Entry.text ++
      (c!"E" ++ c!": of al"))) = .ok (some (t, c!": of al")) := by
  refine C137_same_python _ _ c!"E" _ _ (by simp) ?_ ?_ (by decide) (by decide) (by decide) (by decide) (by decide) (by decide)
    (.cons ⟨.inr ⟨c!"jo", c!"al", c!"a.py", by decide, by decide, rfl, rfl⟩, rfl, rfl, rfl, rfl⟩ .nil)
  all_goals
    intro x hx
    rw [List.mem_singleton.1 hx]
    refine ⟨⟨fun _ => ⟨by decide, ?_⟩, by decide⟩, by decide, (by rintro f ⟨⟩), (by rintro f ⟨⟩), (by rintro f ⟨⟩)⟩
    rintro ⟨t, h⟩
    exact absurd (List.cons.inj h).1 (by decide)

example : ∃ t, Java.parseThread (Java.printThread ⟨some c!"main", [{ name := some c!"E", isException := true, message := none },
      ⟨some c!"f", some c!"A.java", 1, some c!"/home/jo/x.jar", false, false, none⟩]⟩) = .ok (some (t, [])) ∧
    Java.parseThread (Java.printThread ⟨some c!"main", [{ name := some c!"E", isException := true, message := none },
      ⟨some c!"f", some c!"A.java", 1, some c!"/home/al/x.jar", false, false, none⟩]⟩) = .ok (some (t, [])) := by
  refine C137_same_java c!"main" c!"E" none [_] [_] (by decide) (by decide) (by decide) (by decide) (by decide) (by rintro m ⟨⟩) ?_ ?_
    (.cons ⟨.inl rfl, .inr ⟨c!"jo", c!"al", c!"x.jar", by decide, by decide, rfl, rfl⟩, rfl⟩ .nil)
  all_goals
    intro x hx
    rw [List.mem_singleton.1 hx]
    exact ⟨rfl, rfl, by rintro n ⟨⟩; decide, (by rintro ⟨⟩), by rintro n ⟨⟩; decide, by decide, by rintro n ⟨⟩; decide⟩

end Satyr.Text.Home
