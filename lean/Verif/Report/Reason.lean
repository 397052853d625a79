import Verif.Frames.Traces
import Verif.Koops.Normalize
/-!
# The reason of a stack trace (C64)
-/
namespace Satyr.Report
open Satyr.CStr Satyr.Frames Satyr.Koops Satyr.Threads

/-! ## Model -/

/-- The argument of a `%s` conversion: a null pointer is undefined behaviour. -/
def stringArg : Option Str → Out Str
  | none => .ub
  | some s => .ok s

/-- `sr_core_stacktrace_get_reason` (lib/core_stacktrace.c:381-387). -/
def coreReason (t : CoreTrace) : Out Str :=
  .ok (c!"Program " ++ (t.executable.getD c!"<unknown>" ++ (c!" was terminated by signal " ++ natDec t.signal)))

/-- The text that most kinds of stack traces have in common. -/
def positionText (exc between : Str) (file : Str) (line : Nat) : Str := exc ++ (between ++ (file ++ (':' :: natDec line)))

/-- The loop to the last frame of `sr_python_stacktrace_get_reason` (lib/python_stacktrace.c:332-334). -/
def lastFrame : List PythonFrame → Option PythonFrame
  | [] => none
  | [f] => some f
  | _ :: g :: l => lastFrame (g :: l)

/-- `sr_python_stacktrace_get_reason` (lib/python_stacktrace.c:325-346). -/
def pythonReason (t : PythonTrace) : Out Str :=
  let exc := t.exceptionName.getD c!"Unknown error"
  match lastFrame t.frames with
  | some f => do
    let file ← stringArg f.fileName
    return positionText exc c!" in " file f.fileLine
  | none => .ok (positionText exc c!" in " c!"<unknown>" 0)

/-- `sr_ruby_stacktrace_get_reason` (lib/ruby_stacktrace.c:364-382). -/
def rubyReason (t : RubyTrace) : Out Str :=
  let exc := t.exceptionName.getD c!"Unknown error"
  match t.frames with
  | f :: _ => do
    let file ← stringArg f.fileName
    return positionText exc c!" in " file f.fileLine
  | [] => .ok (positionText exc c!" in " c!"<unknown>" 0)

/-- `sr_js_stacktrace_get_reason` (lib/js_stacktrace.c:352-371). -/
def jsReason (t : JsTrace) : Out Str :=
  let exc := t.exceptionName.getD c!"Error"
  match t.frames with
  | f :: _ => do
    let file ← stringArg f.fileName
    return positionText exc c!" at " file f.fileLine ++ (':' :: natDec f.lineColumn)
  | [] => .ok (positionText exc c!" at " c!"<unknown>" 0 ++ c!":0")

/-- The variables of the loop of `sr_java_stacktrace_get_reason`. -/
structure JavaVars where
  exc : Str
  found : Bool
  file : Str
  line : Nat

/-- The exception name (lib/java_stacktrace.c:252-257). -/
def noteException (v : JavaVars) (f : JavaFrame) : JavaVars :=
  if f.isException = true ∧ v.found = false then
    match f.name with
    | some name => { v with exc := name, found := true }
    | none => v
  else v

/-- The position (lib/java_stacktrace.c:259-264); `rest` are the frames after `f`. -/
def notePosition (v : JavaVars) (f : JavaFrame) (rest : List JavaFrame) : JavaVars :=
  if rest = [] then
    match f.fileName with
    | some file => { v with file := file, line := f.fileLine }
    | none => v
  else v

/-- The loop over the frames of the first thread (lib/java_stacktrace.c:250-267). -/
def javaLoop (v : JavaVars) : List JavaFrame → JavaVars
  | [] => v
  | f :: rest => javaLoop (notePosition (noteException v f) f rest) rest

/-- `sr_java_stacktrace_get_reason` (lib/java_stacktrace.c:235-272). -/
def javaReason (t : JavaTrace) : Out Str :=
  let v : JavaVars := { exc := c!"<unknown>", found := false, file := c!"<unknown>", line := 0 }
  let v := match t.threads with
    | th :: _ => javaLoop v th.frames
    | [] => v
  .ok (c!"Exception " ++ positionText v.exc c!" occurred in " v.file v.line)

/-- The frames of the copy, with their positions as identities. -/
def nodes (l : List KoopsFrame) : List (Node KoopsFrame) := l.zipIdx.map fun p => ⟨p.2, p.1⟩

/-- `sr_koops_stacktrace_get_reason` (lib/koops_stacktrace.c:759-791), after the copy is normalized. -/
def koopsText (reason : Option Str) (frame : Option KoopsFrame) : Str :=
  let func := (frame.bind KoopsFrame.functionName).getD c!"<unknown>"
  (match reason with
  | some r =>
    if strstrHas r c!"general protection fault: " then c!"general protection fault in " ++ func
    else if strstrHas r c!"kernel paging request at" then c!"kernel paging request at " ++ func
    else r
  | none => c!"Kernel oops in " ++ func) ++
  (match frame.bind KoopsFrame.moduleName with
  | some m => c!" [" ++ (m ++ c!"]")
  | none => [])

/-- `sr_koops_stacktrace_get_reason` (lib/koops_stacktrace.c:759-791). -/
def koopsReason (t : KoopsTrace) : Out Str := do
  let copy ← normalizeKoops (nodes t.frames)
  return koopsText t.reason (copy.head?.map Node.val)

/-! ## Specification -/

/-- The position in the text of a reason. -/
def At (text : Str) (before file : Str) (line : Nat) : Prop := text = before ++ file ++ c!":" ++ natDec line

/-- The frame that belongs to a module or whose function, without the part from the first dot on, is interesting. -/
def interesting (f : KoopsFrame) : Prop :=
  f.moduleName ≠ none ∨ ∀ b ∈ blacklist, f.functionName.map beforeDot ≠ some b

instance (f : KoopsFrame) : Decidable (interesting f) := by unfold interesting; infer_instance

/-! ## Properties -/

theorem lastFrame_eq (l : List PythonFrame) : lastFrame l = l.getLast? := by
  induction l with
  | nil => rfl
  | cons f l ih =>
    cases l with
    | nil => rfl
    | cons g l => rw [lastFrame, ih, List.getLast?_cons_cons]

/-- C64: the reason of a core stack trace names the program and the signal. -/
theorem C64_core (t : CoreTrace) : coreReason t =
    .ok (c!"Program " ++ t.executable.getD c!"<unknown>" ++ c!" was terminated by signal " ++ natDec t.signal) := by
  simp [coreReason]

/-- C64: the reason of a Python stack trace names the exception and the position of the last frame, the innermost call; it is
undefined if that frame has no file name. -/
theorem C64_python (t : PythonTrace) :
    (∀ f file, t.frames.getLast? = some f → f.fileName = some file →
      ∃ s, pythonReason t = .ok s ∧ At s (t.exceptionName.getD c!"Unknown error" ++ c!" in ") file f.fileLine) ∧
    (t.frames = [] → ∃ s, pythonReason t = .ok s ∧
      At s (t.exceptionName.getD c!"Unknown error" ++ c!" in ") c!"<unknown>" 0) ∧
    (∀ f, t.frames.getLast? = some f → f.fileName = none → pythonReason t = .ub) := by
  refine ⟨?_, ?_, ?_⟩
  · intro f file h1 h2
    refine ⟨_, by rw [pythonReason, lastFrame_eq, h1]; simp only [h2, stringArg]; rfl, ?_⟩
    simp [At, positionText]
  · intro h
    refine ⟨_, by rw [pythonReason, lastFrame_eq, h]; rfl, ?_⟩
    simp [At, positionText]
  · intro f h1 h2
    rw [pythonReason, lastFrame_eq, h1]; simp only [h2, stringArg]; rfl

/-- C64: the reason of a Ruby stack trace names the exception and the position of the first frame; it is undefined if that
frame has no file name. -/
theorem C64_ruby (t : RubyTrace) :
    (∀ f file, t.frames.head? = some f → f.fileName = some file →
      ∃ s, rubyReason t = .ok s ∧ At s (t.exceptionName.getD c!"Unknown error" ++ c!" in ") file f.fileLine) ∧
    (t.frames = [] → ∃ s, rubyReason t = .ok s ∧
      At s (t.exceptionName.getD c!"Unknown error" ++ c!" in ") c!"<unknown>" 0) ∧
    (∀ f, t.frames.head? = some f → f.fileName = none → rubyReason t = .ub) := by
  obtain ⟨e, fs⟩ := t
  refine ⟨?_, ?_, ?_⟩
  · intro f file h1 h2
    cases fs with
    | nil => simp at h1
    | cons g l =>
      obtain rfl : g = f := by simpa using h1
      refine ⟨_, by simp only [rubyReason, h2, stringArg]; rfl, ?_⟩
      simp [At, positionText]
  · intro h
    dsimp only at h
    subst h
    refine ⟨_, rfl, ?_⟩
    simp [At, positionText]
  · intro f h1 h2
    cases fs with
    | nil => simp at h1
    | cons g l =>
      obtain rfl : g = f := by simpa using h1
      simp only [rubyReason, h2, stringArg]; rfl

/-- C64: the reason of a JavaScript stack trace names the exception, the position and the column of the first frame; it is
undefined if that frame has no file name. -/
theorem C64_js (t : JsTrace) :
    (∀ f file, t.frames.head? = some f → f.fileName = some file →
      ∃ s, jsReason t = .ok (s ++ c!":" ++ natDec f.lineColumn) ∧
        At s (t.exceptionName.getD c!"Error" ++ c!" at ") file f.fileLine) ∧
    (t.frames = [] → ∃ s, jsReason t = .ok (s ++ c!":0") ∧
      At s (t.exceptionName.getD c!"Error" ++ c!" at ") c!"<unknown>" 0) ∧
    (∀ f, t.frames.head? = some f → f.fileName = none → jsReason t = .ub) := by
  obtain ⟨e, fs, p⟩ := t
  refine ⟨?_, ?_, ?_⟩
  · intro f file h1 h2
    cases fs with
    | nil => simp at h1
    | cons g l =>
      obtain rfl : g = f := by simpa using h1
      refine ⟨positionText (e.getD c!"Error") c!" at " file g.fileLine, ?_, by simp [At, positionText]⟩
      simp only [jsReason, h2, stringArg, Out.bind_ok]
      simp
  · intro h
    dsimp only at h
    subst h
    refine ⟨_, rfl, ?_⟩
    simp [At, positionText]
  · intro f h1 h2
    cases fs with
    | nil => simp at h1
    | cons g l =>
      obtain rfl : g = f := by simpa using h1
      simp only [jsReason, h2, stringArg]; rfl

/-- The first named exception among the frames. -/
def firstException (l : List JavaFrame) : Option Str := (l.filterMap fun f => if f.isException then f.name else none).head?

/-- The position of the last frame. -/
def lastPosition (l : List JavaFrame) : Option (Str × Nat) := l.getLast?.bind fun f => f.fileName.map fun n => (n, f.fileLine)

theorem notePosition_exc (v : JavaVars) (f : JavaFrame) (l : List JavaFrame) :
    (notePosition v f l).exc = v.exc ∧ (notePosition v f l).found = v.found := by
  unfold notePosition
  split
  · split <;> exact ⟨rfl, rfl⟩
  · exact ⟨rfl, rfl⟩

theorem noteException_pos (v : JavaVars) (f : JavaFrame) :
    (noteException v f).file = v.file ∧ (noteException v f).line = v.line := by
  unfold noteException
  split
  · split <;> exact ⟨rfl, rfl⟩
  · exact ⟨rfl, rfl⟩

theorem javaLoop_found (v : JavaVars) (h : v.found = true) (l : List JavaFrame) :
    (javaLoop v l).exc = v.exc := by
  induction l generalizing v with
  | nil => rfl
  | cons f l ih =>
    have e : noteException v f = v := by rw [noteException, if_neg (by simp [h])]
    rw [javaLoop, e, ih _ (by rw [(notePosition_exc v f l).2, h]), (notePosition_exc v f l).1]

theorem javaLoop_exc (v : JavaVars) (h : v.found = false) (l : List JavaFrame) :
    (javaLoop v l).exc = (firstException l).getD v.exc := by
  induction l generalizing v with
  | nil => rfl
  | cons f l ih =>
    rw [javaLoop]
    by_cases he : f.isException = true ∧ f.name ≠ none
    · obtain ⟨n, hn⟩ := Option.ne_none_iff_exists'.1 he.2
      have e : noteException v f = { v with exc := n, found := true } := by
        rw [noteException, if_pos ⟨he.1, h⟩, hn]
      rw [e, javaLoop_found _ (by rw [(notePosition_exc _ f l).2]), (notePosition_exc _ f l).1]
      have : firstException (f :: l) = some n := by simp [firstException, he.1, hn]
      rw [this]
      rfl
    · have e : noteException v f = v := by
        rw [noteException]
        by_cases hx : f.isException = true
        · have : f.name = none := by by_contra hn; exact he ⟨hx, hn⟩
          rw [if_pos ⟨hx, h⟩, this]
        · rw [if_neg (by simp [hx])]
      rw [e, ih _ (by rw [(notePosition_exc v f l).2, h]), (notePosition_exc v f l).1]
      have : firstException (f :: l) = firstException l := by
        by_cases hx : f.isException = true
        · have : f.name = none := by by_contra hn; exact he ⟨hx, hn⟩
          simp [firstException, this]
        · simp [firstException, hx]
      rw [this]

theorem javaLoop_pos (v : JavaVars) (l : List JavaFrame) :
    (javaLoop v l).file = ((lastPosition l).getD (v.file, v.line)).1 ∧
    (javaLoop v l).line = ((lastPosition l).getD (v.file, v.line)).2 := by
  induction l generalizing v with
  | nil => exact ⟨rfl, rfl⟩
  | cons f l ih =>
    rw [javaLoop]
    obtain ⟨h1, h2⟩ := noteException_pos v f
    cases l with
    | nil =>
      rw [javaLoop, notePosition, if_pos rfl]
      cases hf : f.fileName with
      | none => simp [lastPosition, hf, h1, h2]
      | some n => simp [lastPosition, hf]
    | cons g l =>
      have e : lastPosition (f :: g :: l) = lastPosition (g :: l) := by
        unfold lastPosition; rw [List.getLast?_cons_cons]
      rw [e, notePosition, if_neg (by simp)]
      have := ih (noteException v f)
      rwa [h1, h2] at this

/-- C64: the reason of a Java stack trace names the first exception of the first thread and the position of its last frame. -/
theorem C64_java (t : JavaTrace) : ∃ s, javaReason t = .ok s ∧
    At s (c!"Exception " ++ ((t.threads.head?.bind fun th => firstException th.frames).getD c!"<unknown>") ++ c!" occurred in ")
      ((t.threads.head?.bind fun th => lastPosition th.frames).getD (c!"<unknown>", 0)).1
      ((t.threads.head?.bind fun th => lastPosition th.frames).getD (c!"<unknown>", 0)).2 := by
  refine ⟨_, rfl, ?_⟩
  obtain ⟨threads⟩ := t
  cases threads with
  | nil => simp [At, positionText]
  | cons th l =>
    simp only [List.head?_cons, Option.bind_some]
    rw [javaLoop_exc _ rfl, (javaLoop_pos _ _).1, (javaLoop_pos _ _).2]
    simp [At, positionText]

theorem nodes_wf (l : List KoopsFrame) : WF (nodes l) := by
  unfold WF nodes
  rw [List.map_map]
  have : ((fun n : Node KoopsFrame => n.id) ∘ fun p : KoopsFrame × Nat => (⟨p.2, p.1⟩ : Node KoopsFrame)) = Prod.snd := rfl
  rw [this, List.zipIdx_map_snd]
  exact List.nodup_range'

/-- C64: the reason of a kernel oops is always defined; it names the first interesting frame. -/
theorem C64_koops (t : KoopsTrace) : koopsReason t =
    .ok (koopsText t.reason ((t.frames.filter fun f => decide (interesting f)).head?.map fun f =>
      { f with functionName := f.functionName.map beforeDot })) := by
  unfold koopsReason
  rw [normalizeKoops_eq _ (nodes_wf _), Out.bind_ok, Out.pure_eq]
  refine congrArg (fun x => Out.ok (koopsText t.reason x)) ?_
  unfold nodes
  generalize t.frames = l
  have h : ∀ n : Node KoopsFrame, decide (Kept (undotted n)) = decide (interesting n.val) := fun n => rfl
  rw [List.filter_map, List.head?_map, Option.map_map]
  have e : ((fun n : Node KoopsFrame => decide (Kept n)) ∘ undotted) = (fun f => decide (interesting f)) ∘ Node.val := by
    funext n; exact h n
  rw [e]
  have e2 : l.filter (fun f => decide (interesting f)) =
      (((l.zipIdx.map fun p => (⟨p.2, p.1⟩ : Node KoopsFrame)).filter ((fun f => decide (interesting f)) ∘ Node.val)).map
        Node.val) := by
    rw [← List.filter_map, List.map_map]
    have : (Node.val ∘ fun p : KoopsFrame × Nat => (⟨p.2, p.1⟩ : Node KoopsFrame)) = Prod.fst := rfl
    rw [this, List.zipIdx_map_fst]
  rw [e2, List.head?_map, Option.map_map]
  rfl

/-! ### Non-vacuity -/

example : pythonReason { exceptionName := c!"TypeError", frames := [{ fileName := c!"a.py", fileLine := 1 },
                                                                    { fileName := c!"b.py", fileLine := 20 }] } =
    .ok c!"TypeError in b.py:20" := by decide +kernel
example : rubyReason { exceptionName := c!"TypeError", frames := [{ fileName := c!"a.rb", fileLine := 1 },
                                                                  { fileName := c!"b.rb", fileLine := 20 }] } =
    .ok c!"TypeError in a.rb:1" := by decide +kernel
example : jsReason { frames := [{ fileName := c!"a.js", fileLine := 1, lineColumn := 7 }] } = .ok c!"Error at a.js:1:7" := by
  decide +kernel
example : javaReason { threads := [{ frames := [{ name := c!"E", isException := true }, { name := c!"F", isException := true },
                                                { name := c!"m", fileName := c!"A.java", fileLine := 36 }] }] } =
    .ok c!"Exception E occurred in A.java:36" := by decide +kernel
example : koopsReason { reason := c!"BUG: unable to handle kernel paging request at 0000000000001000"
                        frames := [{ functionName := c!"warn_slowpath_null" },
                                   { functionName := c!"i915_irq.isra.3", moduleName := c!"i915" }] } =
    .ok c!"kernel paging request at i915_irq [i915]" := by decide +kernel
example : pythonReason { frames := [{ functionName := c!"f" }] } = .ub := by decide +kernel

end Satyr.Report
