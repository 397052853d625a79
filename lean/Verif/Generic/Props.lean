import Verif.Generic.Model
import Verif.Frames.ThreadCmp
import Verif.Report.Json
/-!
# Stack traces, threads and frames of any type (C114)
-/
namespace Satyr.Generic
open Satyr.CStr Satyr.Frames Satyr.Normalize Satyr.Threads Satyr.Report Satyr.Hash

/-! ## Loops over frames -/

/-- Frames of one type, with the texts of each. -/
structure Kind {F : Type} (mk : F → List F → Frame) (print : F → Out Str) (bt : F → Str) (dup : DupFlags → F → Str) : Prop where
  next : ∀ f l, (mk f l).next = .ok (first mk l)
  size : ∀ f l, (mk f l).size = l.length + 1
  print : ∀ f l, (mk f l).appendToStr = print f
  bt : ∀ f l, (mk f l).bthash = .ok (bt f)
  dup : ∀ fl f l, (mk f l).duphash fl = .ok (dup fl f)

section
variable {F : Type} {mk : F → List F → Frame} {print : F → Out Str} {bt : F → Str} {dup : DupFlags → F → Str}

theorem first_cons {F : Type} (mk : F → List F → Frame) (f : F) (l : List F) : first mk (f :: l) = some (mk f l) := rfl

theorem Kind.fuel (h : Kind mk print bt dup) (l : List F) : fuel (first mk l) = l.length + 1 := by
  cases l with
  | nil => rfl
  | cons f l => simp [first, Generic.fuel, h.size]

theorem Kind.count (h : Kind mk print bt dup) : ∀ l : List F, countLoop (l.length + 1) (first mk l) = .ok l.length
  | [] => rfl
  | f :: l => by
    simp only [first_cons, List.length_cons, countLoop, h.next, Out.bind_ok, h.count l]

theorem Kind.btFrames (h : Kind mk print bt dup) : ∀ l : List F, btFrames (l.length + 1) (first mk l) = .ok (l.flatMap bt)
  | [] => rfl
  | f :: l => by
    simp only [first_cons, List.length_cons, Generic.btFrames, h.next, h.bt, Out.bind_ok, h.btFrames l, List.flatMap_cons]

theorem Kind.short (h : Kind mk print bt dup) (max : Int) : ∀ (l : List F) (i : Nat),
    shortLoop max (l.length + 1) i (first mk l) = Short.shortLoop print max i l
  | [], i => rfl
  | f :: l, i => by
    simp only [first_cons, List.length_cons, shortLoop, Short.shortLoop, h.next, h.print]
    refine bind_congr fun x => ?_
    split
    · rfl
    · simp only [Out.bind_ok, h.short max l]

theorem Kind.dupLoop (h : Kind mk print bt dup) (fl : DupFlags) : ∀ (l : List F) (i : Nat) (n : Int) (buf : Str),
    dupLoop fl (l.length + 1) n (first mk l) buf =
      .ok (Hash.dupLoop (dup fl) n ((l.zipIdx i).map fun p => (⟨p.2, p.1⟩ : Node F)) buf)
  | [], i, n, buf => by simp [first, Generic.dupLoop, Hash.dupLoop]
  | f :: l, i, n, buf => by
    simp only [first_cons, List.length_cons, Generic.dupLoop, List.zipIdx_cons, List.map_cons, Hash.dupLoop, h.next, h.dup, Out.bind_ok]
    split
    · rw [h.dupLoop fl l (i + 1)]
    · rfl
end

theorem kind_core : Kind .core Short.coreFrame coreFrameBt (fun _ => coreDup) :=
  ⟨fun _ _ => rfl, fun _ _ => rfl, fun _ _ => rfl, fun _ _ => rfl, fun _ _ _ => rfl⟩
theorem kind_python : Kind .python (fun f => .ok (Short.pythonFrame f)) pythonFrameBt (fun _ => pythonDup) :=
  ⟨fun _ _ => rfl, fun _ _ => rfl, fun _ _ => rfl, fun _ _ => rfl, fun _ _ _ => rfl⟩
theorem kind_koops : Kind .koops (fun f => .ok (Short.koopsFrame f)) koopsFrameBt koopsDup :=
  ⟨fun _ _ => rfl, fun _ _ => rfl, fun _ _ => rfl, fun _ _ => rfl, fun _ _ _ => rfl⟩
theorem kind_java : Kind .java (fun f => .ok (Text.Java.printFrame f)) javaFrameBt (fun _ => javaDup) :=
  ⟨fun _ _ => rfl, fun _ _ => rfl, fun _ _ => rfl, fun _ _ => rfl, fun _ _ _ => rfl⟩
theorem kind_gdb : Kind .gdb (fun _ => .ub) gdbFrameBt (fun _ => gdbDup) :=
  ⟨fun _ _ => rfl, fun _ _ => rfl, fun _ _ => rfl, fun _ _ => rfl, fun _ _ _ => rfl⟩
theorem kind_ruby : Kind .ruby (fun f => .ok (Short.rubyFrame f)) rubyFrameBt (fun _ => rubyDup) :=
  ⟨fun _ _ => rfl, fun _ _ => rfl, fun _ _ => rfl, fun _ _ => rfl, fun _ _ _ => rfl⟩
theorem kind_js : Kind .js Text.Js.printFrame jsFrameBt (fun _ => jsDup) :=
  ⟨fun _ _ => rfl, fun _ _ => rfl, fun _ _ => rfl, fun _ _ => rfl, fun _ _ _ => rfl⟩

theorem frames_eq (t : Thread) : t.frames = .ok (framesOf t) := by cases t <;> rfl

/-! ## Specification -/

/-- The number of frames of a thread. -/
def numFrames : Thread → Nat
  | .core t _ => t.frames.length
  | .python t => t.frames.length
  | .koops t => t.frames.length
  | .java t _ => t.frames.length
  | .gdb t _ => t.frames.length
  | .ruby t => t.frames.length
  | .js t => t.frames.length

/-- The threads of a stack trace, each with those after it. -/
def tails {T : Type} (mk : T → List T → Thread) : List T → List Thread
  | [] => []
  | t :: l => mk t l :: tails mk l

/-- The threads of a stack trace: stack traces of four types are their own only thread. -/
def allThreads : Stacktrace → List Thread
  | .core t => tails .core t.threads
  | .python t => [.python t]
  | .koops t => [.koops t]
  | .java t => tails .java t.threads
  | .gdb t => tails .gdb t.threads
  | .ruby t => [.ruby t]
  | .js t => [.js t]

/-- The loop of a user over the threads: from the first on with `sr_thread_next`. -/
inductive Walk : Option Thread → List Thread → Prop where
  | done : Walk none []
  | step {t u l} : t.next = .ok u → Walk u l → Walk (some t) (t :: l)

/-- The loop of a user over the frames, with what each frame is (its `sr_frame_append_to_str` text, its texts for the hashes). -/
inductive WalkFrames : Option Frame → List Frame → Prop where
  | done : WalkFrames none []
  | step {f g l} : f.next = .ok g → WalkFrames g l → WalkFrames (some f) (f :: l)

/-- The frames of one list, each with those after it. -/
def frameTails {F : Type} (mk : F → List F → Frame) : List F → List Frame
  | [] => []
  | f :: l => mk f l :: frameTails mk l

/-- The frames of a thread. -/
def allFrames : Thread → List Frame
  | .core t _ => frameTails .core t.frames
  | .python t => frameTails .python t.frames
  | .koops t => frameTails .koops t.frames
  | .java t _ => frameTails .java t.frames
  | .gdb t _ => frameTails .gdb t.frames
  | .ruby t => frameTails .ruby t.frames
  | .js t => frameTails .js t.frames

/-! ## Walking -/

theorem walk_tails {T : Type} {mk : T → List T → Thread} (h : ∀ t l, (mk t l).next = .ok (firstThread mk l)) :
    ∀ l, Walk (firstThread mk l) (tails mk l)
  | [] => .done
  | t :: l => .step (h t l) (walk_tails h l)

theorem walk_frames {F : Type} {mk : F → List F → Frame} (h : ∀ t l, (mk t l).next = .ok (first mk l)) :
    ∀ l, WalkFrames (first mk l) (frameTails mk l)
  | [] => .done
  | t :: l => .step (h t l) (walk_frames h l)

theorem mem_tails {T : Type} {mk : T → List T → Thread} {l : List T} {x : Thread} (h : x ∈ tails mk l) : ∃ t l', x = mk t l' := by
  induction l with
  | nil => simp [tails] at h
  | cons t l ih =>
    simp only [tails, List.mem_cons] at h
    rcases h with h | h
    · exact ⟨_, _, h⟩
    · exact ih h

theorem mem_frameTails {F : Type} {mk : F → List F → Frame} {l : List F} {x : Frame} (h : x ∈ frameTails mk l) : ∃ t l', x = mk t l' := by
  induction l with
  | nil => simp [frameTails] at h
  | cons t l ih =>
    simp only [frameTails, List.mem_cons] at h
    rcases h with h | h
    · exact ⟨_, _, h⟩
    · exact ih h

/-- C114, the threads and frames: from what `sr_stacktrace_threads` returns, `sr_thread_next` leads through all the threads of the
stack trace, in their order, and ends; from what `sr_thread_frames` returns, `sr_frame_next` leads through all the frames of the
thread, and `sr_thread_frame_count` is their number. All have the type of the stack trace. -/
theorem C114_walk (s : Stacktrace) :
    (∃ o, threads s = .ok o ∧ Walk o (allThreads s)) ∧
    (∀ t ∈ allThreads s, t.type = typeOf s ∧ t.frameCount = .ok (numFrames t) ∧ (allFrames t).length = numFrames t ∧
      (∀ f ∈ allFrames t, f.type = typeOf s) ∧ ∃ o, t.frames = .ok o ∧ WalkFrames o (allFrames t)) := by
  have flen : ∀ {F : Type} (mk : F → List F → Frame) (l : List F), (frameTails mk l).length = l.length := by
    intro F mk l
    induction l with
    | nil => rfl
    | cons a l ih => simp [frameTails, ih]
  have cnt : ∀ {F : Type} {mk : F → List F → Frame} {p b d} (_ : Kind mk p b d) (l : List F),
      countLoop (fuel (first mk l)) (first mk l) = .ok l.length := by
    intro F mk p b d h l
    rw [h.fuel, h.count]
  cases s with
  | core s =>
    refine ⟨⟨_, rfl, walk_tails (fun _ _ => rfl) _⟩, fun x hx => ?_⟩
    obtain ⟨t, l, rfl⟩ := mem_tails hx
    refine ⟨rfl, cnt kind_core t.frames, flen _ _, fun f hf => ?_, _, rfl, walk_frames (fun _ _ => rfl) _⟩
    obtain ⟨g, r, rfl⟩ := mem_frameTails hf
    rfl
  | python s =>
    refine ⟨⟨_, rfl, .step rfl .done⟩, ?_⟩
    simp only [allThreads, List.mem_singleton, forall_eq]
    refine ⟨rfl, cnt kind_python s.frames, flen _ _, fun f hf => ?_, _, rfl, walk_frames (fun _ _ => rfl) _⟩
    obtain ⟨g, r, rfl⟩ := mem_frameTails hf
    rfl
  | koops s =>
    refine ⟨⟨_, rfl, .step rfl .done⟩, ?_⟩
    simp only [allThreads, List.mem_singleton, forall_eq]
    refine ⟨rfl, cnt kind_koops s.frames, flen _ _, fun f hf => ?_, _, rfl, walk_frames (fun _ _ => rfl) _⟩
    obtain ⟨g, r, rfl⟩ := mem_frameTails hf
    rfl
  | java s =>
    refine ⟨⟨_, rfl, walk_tails (fun _ _ => rfl) _⟩, fun x hx => ?_⟩
    obtain ⟨t, l, rfl⟩ := mem_tails hx
    refine ⟨rfl, cnt kind_java t.frames, flen _ _, fun f hf => ?_, _, rfl, walk_frames (fun _ _ => rfl) _⟩
    obtain ⟨g, r, rfl⟩ := mem_frameTails hf
    rfl
  | gdb s =>
    refine ⟨⟨_, rfl, walk_tails (fun _ _ => rfl) _⟩, fun x hx => ?_⟩
    obtain ⟨t, l, rfl⟩ := mem_tails hx
    refine ⟨rfl, cnt kind_gdb t.frames, flen _ _, fun f hf => ?_, _, rfl, walk_frames (fun _ _ => rfl) _⟩
    obtain ⟨g, r, rfl⟩ := mem_frameTails hf
    rfl
  | ruby s =>
    refine ⟨⟨_, rfl, .step rfl .done⟩, ?_⟩
    simp only [allThreads, List.mem_singleton, forall_eq]
    refine ⟨rfl, cnt kind_ruby s.frames, flen _ _, fun f hf => ?_, _, rfl, walk_frames (fun _ _ => rfl) _⟩
    obtain ⟨g, r, rfl⟩ := mem_frameTails hf
    rfl
  | js s =>
    refine ⟨⟨_, rfl, .step rfl .done⟩, ?_⟩
    simp only [allThreads, List.mem_singleton, forall_eq]
    refine ⟨rfl, cnt kind_js s.frames, flen _ _, fun f hf => ?_, _, rfl, walk_frames (fun _ _ => rfl) _⟩
    obtain ⟨g, r, rfl⟩ := mem_frameTails hf
    rfl

example : (allThreads (.core { threads := [{}, { frames := [{}, {}] }] })).map numFrames = [0, 2] := by decide

/-! ## Parsing and JSON -/

/-- C114, types: a type is one of the seven of stack traces, or parsing a text or reading JSON aborts; a stack trace that is returned
has the type asked for. -/
theorem C114_type (type : Int) (s : Str) (j : Json.Value) :
    (¬ (0 < type ∧ type < 8) → parse type s = .abort ∧ fromJson type j = .abort) ∧
    (∀ t, parse type s = .ok (some t) → (typeOf t).code = type) ∧
    (∀ t, fromJson type j = .ok (some t) → (typeOf t).code = type) ∧
    (∀ t, fromJsonText type s = .ok (some t) → (typeOf t).code = type) := by
  have hp : ∀ {A : Type} {mk : A → Stacktrace} {r : Out (Option (A × Str))} {t}, parsed mk r = .ok (some t) → ∃ a, t = mk a := by
    intro A mk r t h
    unfold parsed at h
    cases r with
    | ok x =>
      cases x with
      | none => cases h
      | some y => exact ⟨y.1, by simpa using (Option.some.inj (Out.ok.inj h)).symm⟩
    | abort => cases h
    | ub => cases h
  have hm : ∀ {A : Type} {mk : A → Stacktrace} {r : Option A} {t}, (Out.ok (r.map mk)) = .ok (some t) → ∃ a, t = mk a := by
    intro A mk r t h
    cases r with
    | none => cases h
    | some y => exact ⟨y, (Option.some.inj (Out.ok.inj h)).symm⟩
  have hj : ∀ (j : Json.Value) t, fromJson type j = .ok (some t) → (typeOf t).code = type := by
    intro j t h
    by_cases ht : 0 < type ∧ type < 8
    · obtain rfl | rfl | rfl | rfl | rfl | rfl | rfl : type = 1 ∨ type = 2 ∨ type = 3 ∨ type = 4 ∨ type = 5 ∨ type = 6 ∨ type = 7 := by
        omega
      · obtain ⟨a, rfl⟩ := hm (show Out.ok ((Json.Core.fromJson j).map Stacktrace.core) = _ from h); rfl
      · obtain ⟨a, rfl⟩ := hm (show Out.ok ((Json.Python.fromJson j).map Stacktrace.python) = _ from h); rfl
      · change (Json.Koops.fromJson j >>= fun r => Out.ok (r.map Stacktrace.koops)) = _ at h
        cases hk : Json.Koops.fromJson j with
        | ok x =>
          rw [hk] at h
          obtain ⟨a, rfl⟩ := hm h
          rfl
        | abort => rw [hk] at h; cases h
        | ub => rw [hk] at h; cases h
      · obtain ⟨a, rfl⟩ := hm (show Out.ok ((Json.Java.fromJson j).map Stacktrace.java) = _ from h); rfl
      · change (Out.ok none : Out (Option Stacktrace)) = _ at h
        cases h
      · obtain ⟨a, rfl⟩ := hm (show Out.ok ((Json.Ruby.fromJson j).map Stacktrace.ruby) = _ from h); rfl
      · obtain ⟨a, rfl⟩ := hm (show Out.ok ((Json.Js.fromJson j).map Stacktrace.js) = _ from h); rfl
    · simp [fromJson, dispatch, ht] at h
  refine ⟨fun h => ⟨?_, ?_⟩, ?_, hj j, ?_⟩
  · simp [parse, dispatch, h]
  · simp [fromJson, dispatch, h]
  · intro t h
    by_cases ht : 0 < type ∧ type < 8
    · obtain rfl | rfl | rfl | rfl | rfl | rfl | rfl : type = 1 ∨ type = 2 ∨ type = 3 ∨ type = 4 ∨ type = 5 ∨ type = 6 ∨ type = 7 := by
        omega
      · obtain ⟨a, rfl⟩ := hm (show Out.ok (((Json.parse s).bind Json.Core.fromJson).map Stacktrace.core) = _ from h); rfl
      · obtain ⟨a, rfl⟩ := hp (show parsed Stacktrace.python (Text.Python.parse s) = _ from h); rfl
      · change (Text.Koops.parseTrace s >>= fun r => Out.ok (some (Stacktrace.koops r.1))) = _ at h
        cases hk : Text.Koops.parseTrace s with
        | ok x =>
          rw [hk] at h
          cases h
          rfl
        | abort => rw [hk] at h; cases h
        | ub => rw [hk] at h; cases h
      · obtain ⟨a, rfl⟩ := hp (show parsed (fun t => Stacktrace.java ⟨[t]⟩) (Text.Java.parseThread s) = _ from h); rfl
      · obtain ⟨a, rfl⟩ := hp (show parsed Stacktrace.gdb (Gdb.parseTrace s) = _ from h); rfl
      · obtain ⟨a, rfl⟩ := hp (show parsed Stacktrace.ruby (Text.Ruby.parse s) = _ from h); rfl
      · obtain ⟨a, rfl⟩ := hp (show parsed Stacktrace.js (Text.Js.parseTrace s) = _ from h); rfl
    · simp [parse, dispatch, ht] at h
  · intro t h
    unfold fromJsonText at h
    cases hs : Json.parse s with
    | none => rw [hs] at h; cases h
    | some v => rw [hs] at h; exact hj v t h

example : parse 2 c!"Traceback (most recent call last):\n  File \"a\", line 1, in f\nE: m" ≠ .abort := by decide +kernel

/-- The stack traces that are read back from the JSON written for them: not those of gdb, core stack traces with threads, and
something known about every frame of the types for scripts. -/
def ReadBack : Stacktrace → Prop
  | .core t => t.threads ≠ [] ∧ t.signal < 2 ^ 16
  | .python t => ∀ f ∈ t.frames, Json.Python.Some f
  | .koops t => ∀ l, t.modules = some l → l.length < 128
  | .java _ => True
  | .gdb _ => False
  | .ruby t => ∀ f ∈ t.frames, Json.Ruby.Some f
  | .js t => ∀ f ∈ t.frames, Json.Js.Some f

/-- C114, JSON: what `sr_stacktrace_to_json` writes is read by `sr_stacktrace_from_json_text` with the type of the stack trace, with
the changes described for each of the types. For gdb nothing is written and nothing read. -/
theorem C114_json (t : Stacktrace) :
    (ReadBack t → ∃ s, toJson t = .ok (some s) ∧ fromJsonText (typeOf t).code s = .ok (some (keepTrace t))) ∧
    (∀ g, t = .gdb g → toJson t = .ok none ∧ ∀ j, fromJson (typeOf t).code j = .ok none) := by
  have main : ∀ {A : Type} {f : Json.Value → Option A} {mk : A → Stacktrace} {s : Str} {c : Int} {a : A},
      (∀ j, fromJson c j = .ok ((f j).map mk)) → (Json.parse s).bind f = some a → fromJsonText c s = .ok (some (mk a)) := by
    intro A f mk s c a h1 h2
    unfold fromJsonText
    cases hs : Json.parse s with
    | none => rw [hs] at h2; cases h2
    | some j =>
      rw [hs] at h2
      dsimp only
      rw [h1, show f j = some a from h2]
      rfl
  refine ⟨fun h => ?_, ?_⟩
  · cases t with
    | core t => exact ⟨_, rfl, main (mk := .core) (f := Json.Core.fromJson) (fun _ => rfl) (Json.Core.C40_read_back t h.1 h.2)⟩
    | python t => exact ⟨_, rfl, main (mk := .python) (f := Json.Python.fromJson) (fun _ => rfl) (Json.Python.C42_read_back t h)⟩
    | koops t =>
      refine ⟨_, rfl, ?_⟩
      have := Json.Koops.C41_read_back t h
      unfold fromJsonText
      cases hs : Json.parse (Json.Koops.toJson t) with
      | none => rw [hs] at this; cases this
      | some j =>
        rw [hs] at this
        dsimp only
        change (Json.Koops.fromJson j >>= fun r => Out.ok (r.map Stacktrace.koops)) = _
        rw [Option.some.inj this]
        rfl
    | java t => exact ⟨_, rfl, main (mk := .java) (f := Json.Java.fromJson) (fun _ => rfl) (Json.Java.C45_read_back t)⟩
    | gdb t => exact h.elim
    | ruby t => exact ⟨_, rfl, main (mk := .ruby) (f := Json.Ruby.fromJson) (fun _ => rfl) (Json.Ruby.C43_read_back t h)⟩
    | js t => exact ⟨_, rfl, main (mk := .js) (f := Json.Js.fromJson) (fun _ => rfl) (Json.Js.C44_read_back t h)⟩
  · rintro g rfl
    exact ⟨rfl, fun _ => rfl⟩

example : ReadBack (.core { threads := [{ frames := [{}] }] }) := ⟨by decide, by decide⟩

/-! ## Texts -/

/-- The crash thread of a core stack trace is in its list. -/
def CrashIn : Stacktrace → Prop
  | .core t => ∀ i, t.crashThread = some i → i < t.threads.length
  | _ => True

theorem findExitThread_lt : ∀ (l : List CoreThread) (i k : Nat), Short.findExitThread i l = some k → k < i + l.length
  | [], i, k, h => by cases h
  | t :: l, i, k, h => by
    unfold Short.findExitThread at h
    split at h
    · cases h; simp
    · have := findExitThread_lt l (i + 1) k h
      simp only [List.length_cons]
      omega

theorem coreCrashThread_lt {t : CoreTrace} (h : CrashIn (.core t)) {i : Nat} (hi : Short.coreCrashThread t = some i) :
    i < t.threads.length := by
  unfold Short.coreCrashThread at hi
  split at hi
  · next j hj => cases hi; exact h _ hj
  · split at hi
    · cases hi
    · next e => cases hi; simp [e]
    · next e1 e2 => simpa using findExitThread_lt _ 0 i hi

/-- The short text of a stack trace as described for its type. -/
def shortTextSpec : Stacktrace → Int → Out (Option Str)
  | .core t, n => Short.coreText t n
  | .python t, n => Short.pythonText t n
  | .koops t, n => Short.koopsText t n
  | .java t, n => Short.javaText t n
  | .gdb t, n => Short.gdbText t n
  | .ruby t, n => Short.rubyText t n
  | .js t, n => Short.jsText t n

theorem Kind.shortText {F : Type} {mk : F → List F → Frame} {print : F → Out Str} {bt : F → Str} {dup : DupFlags → F → Str}
    (h : Kind mk print bt dup) (max : Int) (l : List F) (th : Thread) (e : framesOf th = first mk l)
    (find : Stacktrace → Out (Option Thread)) (t : Stacktrace) (hf : find t = .ok (some th)) :
    shortTextOf find t max = Short.shortText print (some l) max := by
  unfold shortTextOf Short.shortText
  simp only [hf, Out.bind_ok, frames_eq, e]
  rw [h.fuel, h.short]

/-- C114, the short text is the one described for the type (C55, C56, C57). -/
theorem C114_short_text (t : Stacktrace) (h : CrashIn t) (max : Int) : toShortText t max = shortTextSpec t max := by
  cases t with
  | core t =>
    change shortTextOf (fun | .core t => coreCrash t | _ => .ub) (.core t) max = Short.coreText t max
    unfold Short.coreText Short.coreFrames
    cases hc : Short.coreCrashThread t with
    | none =>
      unfold shortTextOf
      simp only [coreCrash, hc]
      rfl
    | some i =>
      have hi := coreCrashThread_lt h hc
      refine kind_core.shortText max _ (.core t.threads[i] (t.threads.drop (i + 1))) ?_ _ _ ?_
      · simp [framesOf, hi]
      · simp only [coreCrash, hc, if_pos hi, threadAt]
        rw [List.drop_eq_getElem_cons hi]
        rfl
  | python t => exact kind_python.shortText max t.frames (.python t) rfl oneThread (.python t) rfl
  | koops t => exact kind_koops.shortText max t.frames (.koops t) rfl oneThread (.koops t) rfl
  | java t =>
    change shortTextOf (fun | .java t => .ok (firstThread .java t.threads) | _ => .ub) (.java t) max = Short.javaText t max
    unfold Short.javaText
    cases ht : t.threads with
    | nil =>
      unfold shortTextOf
      simp only [ht]
      rfl
    | cons u l =>
      refine kind_java.shortText max _ (.java u l) rfl _ _ ?_
      simp only [ht]
      rfl
  | gdb t => rfl
  | ruby t => exact kind_ruby.shortText max t.frames (.ruby t) rfl oneThread (.ruby t) rfl
  | js t => exact kind_js.shortText max t.frames (.js t) rfl oneThread (.js t) rfl

example : CrashIn (.core { threads := [{}, {}], crashThread := some 1 }) := by
  intro i h; cases h; decide

/-- The text hashed for a stack trace as described for its type. -/
def bthashText : Stacktrace → Str
  | .core t => coreBt t
  | .python t => pythonBt t
  | .koops t => koopsBt t
  | .java t => javaBt t
  | .gdb t => gdbBt t
  | .ruby t => rubyBt t
  | .js t => jsBt t

theorem btThreads_list {T F : Type} {tk : T → List T → Thread} {mk : F → List F → Frame} {print : F → Out Str} {bt : F → Str}
    {dup : DupFlags → F → Str} (h : Kind mk print bt dup) (head : T → Str) (frames : T → List F)
    (hh : ∀ t l, (tk t l).bthash = .ok (head t)) (hf : ∀ t l, framesOf (tk t l) = first mk (frames t))
    (hn : ∀ t l, (tk t l).next = .ok (firstThread tk l)) : ∀ l,
    btThreads (l.length + 1) (firstThread tk l) = .ok (threadsBt head frames bt l)
  | [] => rfl
  | [t] => by
    simp only [firstThread, List.length_cons, btThreads, hh, frames_eq, hf, hn, Out.bind_ok, h.fuel, h.btFrames, threadsBt]
    simp
  | t :: u :: l => by
    have ih := btThreads_list h head frames hh hf hn (u :: l)
    have e : btThreads ((t :: u :: l).length + 1) (firstThread tk (t :: u :: l)) =
      (do
        let x ← (tk t (u :: l)).bthash
        let f ← (tk t (u :: l)).frames
        let y ← btFrames (fuel f) f
        let v ← (tk t (u :: l)).next
        let r ← btThreads ((u :: l).length + 1) v
        .ok (x ++ y ++ (if v.isSome then c!"\n" else []) ++ r)) := rfl
    rw [e]
    simp only [hh, frames_eq, hf, hn, Out.bind_ok, h.fuel, h.btFrames, ih, threadsBt]
    simp [firstThread]

theorem btThreads_one {F : Type} {mk : F → List F → Frame} {print : F → Out Str} {bt : F → Str} {dup : DupFlags → F → Str}
    (h : Kind mk print bt dup) (l : List F) (th : Thread) (e : framesOf th = first mk l) (hh : th.bthash = .ok []) (hn : th.next = .ok none) :
    btThreads 2 (some th) = .ok (l.flatMap bt) := by
  simp only [btThreads, hh, frames_eq, e, hn, Out.bind_ok, h.fuel, h.btFrames]
  simp

/-- C114, the text hashed by `sr_stacktrace_get_bthash` is the one described for the type (C20), and with the flag it is the
result. -/
theorem C114_bthash (sha1 : Str → Str) (t : Stacktrace) :
    getBthash sha1 t true = .ok (bthashText t) ∧ getBthash sha1 t false = .ok (sha1 (bthashText t)) := by
  have main : ∀ {head body : Str} {th : Option Thread}, dispatch traceTable (typeOf t).code (·.bthash) >>= (fun f => f t) = .ok head →
      threads t = .ok th → btThreads (threadFuel th) th = .ok body → bthashText t = head ++ body →
      getBthash sha1 t true = .ok (bthashText t) ∧ getBthash sha1 t false = .ok (sha1 (bthashText t)) := by
    intro head body th h1 h2 h3 h4
    have h1' : ∀ {B : Type} (k : Str → Out B), (dispatch traceTable (typeOf t).code (·.bthash) >>= fun f => f t >>= k) = k head := by
      intro B k
      rw [← bind_assoc, h1]; rfl
    constructor <;> simp [getBthash, h1', h2, h3, h4]
  have fu : ∀ {T : Type} (tk : T → List T → Thread) (_ : ∀ t l, (tk t l).size = l.length + 1) (l : List T),
      threadFuel (firstThread tk l) = l.length + 1 := by
    intro T tk hs l
    cases l with
    | nil => rfl
    | cons a l => simp [firstThread, threadFuel, hs]
  cases t with
  | core t =>
    refine main rfl rfl ?_ rfl
    rw [fu _ (fun _ _ => rfl)]
    exact btThreads_list kind_core _ CoreThread.frames (fun _ _ => rfl) (fun _ _ => rfl) (fun _ _ => rfl) _
  | python t => exact main rfl rfl (btThreads_one kind_python _ _ rfl rfl rfl) (by simp [bthashText, pythonBt, threadsBt])
  | koops t => exact main rfl rfl (btThreads_one kind_koops _ _ rfl rfl rfl) (by cases h : t.modules <;> simp [bthashText, koopsBt, threadsBt, h])
  | java t =>
    refine main rfl rfl ?_ rfl
    rw [fu _ (fun _ _ => rfl)]
    exact btThreads_list kind_java _ JavaThread.frames (fun _ _ => rfl) (fun _ _ => rfl) (fun _ _ => rfl) _
  | gdb t =>
    refine main rfl rfl ?_ rfl
    rw [fu _ (fun _ _ => rfl)]
    exact btThreads_list kind_gdb _ GdbThread.frames (fun _ _ => rfl) (fun _ _ => rfl) (fun _ _ => rfl) _
  | ruby t => exact main rfl rfl (btThreads_one kind_ruby _ _ rfl rfl rfl) (by simp [bthashText, rubyBt, threadsBt])
  | js t => exact main rfl rfl (btThreads_one kind_js _ _ rfl rfl rfl) (by simp [bthashText, jsBt, threadsBt])

end Satyr.Generic
