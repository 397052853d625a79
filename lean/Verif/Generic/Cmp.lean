import Verif.Generic.Props
/-!
# Comparing, changing and hashing through the interface for any type (C114)
-/
namespace Satyr.Generic
open Satyr.CStr Satyr.Frames Satyr.Normalize Satyr.Threads Satyr.Report Satyr.Hash

/-! ## Comparisons -/

/-- Different codes are ordered by the codes, equal ones by another comparison. -/
theorem order_codes {A K : Type} {P : A → Prop} {inner : A → A → Int} {key : A → K} (code : A → Int)
    (h : ∀ a b, P a → P b → code a = code b → OrderOn (fun x => P x ∧ code x = code a) inner key) :
    OrderOn P (fun a b => if code a ≠ code b then code a - code b else inner a b) (fun a => (code a, key a)) := by
  refine ⟨fun a b ha hb => ?_, fun a b d ha hb hd hab hbd => ?_, fun a b ha hb => ?_⟩
  · by_cases e : code a = code b
    · simpa [e] using (h a b ha hb e).antisymm a b ⟨ha, rfl⟩ ⟨hb, e.symm⟩
    · have e' : ¬ code b = code a := fun x => e x.symm
      simp only [ne_eq, e, e', not_false_eq_true, if_true]
      rw [← Int.sign_neg]
      congr 1
      omega
  · by_cases e : code a = code b
    · by_cases e2 : code b = code d
      · have e3 : code a = code d := e.trans e2
        simp only [ne_eq, e3, not_true_eq_false, if_false]
        simp only [ne_eq, e, e2, not_true_eq_false, if_false] at hab hbd
        exact (h a b ha hb e).trans a b d ⟨ha, rfl⟩ ⟨hb, e.symm⟩ ⟨hd, e3.symm⟩ hab hbd
      · have e3 : ¬ code a = code d := fun x => e2 (e.symm.trans x)
        simp only [ne_eq, e3, e2, not_false_eq_true, if_true] at hbd ⊢
        omega
    · simp only [ne_eq, e, not_false_eq_true, if_true] at hab
      by_cases e2 : code b = code d
      · have e3 : ¬ code a = code d := fun x => e (x.trans e2.symm)
        simp only [ne_eq, e3, not_false_eq_true, if_true]
        omega
      · simp only [ne_eq, e2, not_false_eq_true, if_true] at hbd
        have e3 : ¬ code a = code d := by omega
        simp only [ne_eq, e3, not_false_eq_true, if_true]
        omega
  · by_cases e : code a = code b
    · simpa [e] using (h a b ha hb e).zero_iff a b ⟨ha, rfl⟩ ⟨hb, e.symm⟩
    · simp only [ne_eq, e, not_false_eq_true, if_true, Prod.mk.injEq, false_and, iff_false]
      omega

/-- The objects of one code are those made from another type. -/
theorem order_made {A B K L : Type} {P : A → Prop} {Q : B → Prop} {inner : A → A → Int} {c : B → B → Int} {key : A → K} {l : B → L}
    (h : OrderOn Q c l) (proj : A → Option B) (hp : ∀ a, P a → ∃ b, proj a = some b ∧ Q b)
    (hi : ∀ a b x y, proj a = some x → proj b = some y → inner a b = c x y)
    (hk : ∀ a b x y, proj a = some x → proj b = some y → (key a = key b ↔ l x = l y)) : OrderOn P inner key := by
  refine ⟨fun a b ha hb => ?_, fun a b d ha hb hd hab hbd => ?_, fun a b ha hb => ?_⟩
  · obtain ⟨x, ex, qx⟩ := hp a ha
    obtain ⟨y, ey, qy⟩ := hp b hb
    rw [hi b a y x ey ex, hi a b x y ex ey]
    exact h.antisymm x y qx qy
  · obtain ⟨x, ex, qx⟩ := hp a ha
    obtain ⟨y, ey, qy⟩ := hp b hb
    obtain ⟨z, ez, qz⟩ := hp d hd
    rw [hi a b x y ex ey] at hab
    rw [hi b d y z ey ez] at hbd
    rw [hi a d x z ex ez]
    exact h.trans x y z qx qy qz hab hbd
  · obtain ⟨x, ex, qx⟩ := hp a ha
    obtain ⟨y, ey, qy⟩ := hp b hb
    rw [hi a b x y ex ey, hk a b x y ex ey]
    exact h.zero_iff x y qx qy

/-- The comparison of two frames of the same type. -/
def frameInner : Frame → Frame → Int
  | .core f _, .core g _ => coreCmp f g
  | .python f _, .python g _ => pythonCmp f g
  | .koops f _, .koops g _ => koopsCmp f g
  | .java f _, .java g _ => javaCmp f g
  | .gdb f _, .gdb g _ => gdbCmp false f g
  | .ruby f _, .ruby g _ => rubyCmp f g
  | .js f _, .js g _ => jsCmp f g
  | _, _ => 0

/-- The numbers of a frame are below 2^31. -/
def SmallFrame : Frame → Prop
  | .core f _ => Small f.buildIdOffset
  | .python f _ => Small f.fileLine
  | .koops f _ => KoopsSmall f
  | .java f _ => Small f.fileLine
  | .gdb f _ => Small f.sourceLine ∧ Small f.number
  | .ruby f _ => Small f.fileLine ∧ Small f.blockLevel ∧ Small f.rescueLevel
  | .js f _ => Small f.fileLine ∧ Small f.lineColumn

/-- What is compared of a frame: the addresses of core and gdb frames, the numbers of gdb frames and the messages of Java frames
are not, frames of signal handlers have nothing, and of exceptions only the name is compared. -/
def compared : Frame → Frame
  | .core f _ => .core { f with address := 0, fingerprintHashed := false } []
  | .python f _ => .python f []
  | .koops f _ => .koops f []
  | .java f _ => .java (if f.isException then { isException := true, name := f.name } else { f with message := none }) []
  | .gdb f _ => .gdb (if f.signalHandlerCalled then { signalHandlerCalled := true }
      else { f with number := 0, address := 0 }) []
  | .ruby f _ => .ruby f []
  | .js f _ => .js f []

theorem frame_cmp_eq (f g : Frame) : f.cmp g =
    .ok (if f.type.code ≠ g.type.code then f.type.code - g.type.code else frameInner f g) := by
  cases f <;> cases g <;> rfl

theorem frame_inner_order (a : Frame) : OrderOn (fun x => SmallFrame x ∧ x.type.code = a.type.code) frameInner compared := by
  cases a with
  | core f n =>
    refine order_made C23_core_partial (fun x => match x with | .core f _ => some f | _ => none) (fun x hx => ?_)
      (fun a b x y ha hb => ?_) (fun a b x y ha hb => ?_)
    · cases x <;> first | exact ⟨_, rfl, hx.1⟩ | exact nomatch (hx.2 : (_ : Int) = _)
    · cases a <;> cases b <;> simp_all [frameInner]
    · cases a <;> cases b <;> simp_all [compared]
  | python f n =>
    refine order_made C23_python_partial (fun x => match x with | .python f _ => some f | _ => none) (fun x hx => ?_)
      (fun a b x y ha hb => ?_) (fun a b x y ha hb => ?_)
    · cases x <;> first | exact ⟨_, rfl, hx.1⟩ | exact nomatch (hx.2 : (_ : Int) = _)
    · cases a <;> cases b <;> simp_all [frameInner]
    · cases a <;> cases b <;> simp_all [compared]
  | koops f n =>
    refine order_made C23_koops_partial (fun x => match x with | .koops f _ => some f | _ => none) (fun x hx => ?_)
      (fun a b x y ha hb => ?_) (fun a b x y ha hb => ?_)
    · cases x <;> first | exact ⟨_, rfl, hx.1⟩ | exact nomatch (hx.2 : (_ : Int) = _)
    · cases a <;> cases b <;> simp_all [frameInner]
    · cases a <;> cases b <;> simp_all [compared]
  | java f n =>
    refine order_made C23_java_partial (fun x => match x with | .java f _ => some f | _ => none) (fun x hx => ?_)
      (fun a b x y ha hb => ?_) (fun a b x y ha hb => ?_)
    · cases x <;> first | exact ⟨_, rfl, hx.1⟩ | exact nomatch (hx.2 : (_ : Int) = _)
    · cases a <;> cases b <;> simp_all [frameInner]
    · cases a <;> cases b <;> simp_all [compared]
      subst ha hb
      rename_i f1 _ f2 _
      obtain ⟨a1, a2, a3, a4, a5, e1, a7⟩ := f1
      obtain ⟨b1, b2, b3, b4, b5, e2, b7⟩ := f2
      cases e1 <;> cases e2 <;> simp
      tauto
  | gdb f n =>
    refine order_made (C23_gdb_partial false) (fun x => match x with | .gdb f _ => some f | _ => none) (fun x hx => ?_)
      (fun a b x y ha hb => ?_) (fun a b x y ha hb => ?_)
    · cases x <;> first | exact ⟨_, rfl, hx.1⟩ | exact nomatch (hx.2 : (_ : Int) = _)
    · cases a <;> cases b <;> simp_all [frameInner]
    · cases a <;> cases b <;> simp_all [compared]
      subst ha hb
      rename_i f1 _ f2 _
      obtain ⟨a1, a2, a3, a4, a5, e1, a7, a8⟩ := f1
      obtain ⟨b1, b2, b3, b4, b5, e2, b7, b8⟩ := f2
      cases e1 <;> cases e2 <;> simp
  | ruby f n =>
    refine order_made C23_ruby_partial (fun x => match x with | .ruby f _ => some f | _ => none) (fun x hx => ?_)
      (fun a b x y ha hb => ?_) (fun a b x y ha hb => ?_)
    · cases x <;> first | exact ⟨_, rfl, hx.1⟩ | exact nomatch (hx.2 : (_ : Int) = _)
    · cases a <;> cases b <;> simp_all [frameInner]
    · cases a <;> cases b <;> simp_all [compared]
  | js f n =>
    refine order_made C23_js_partial (fun x => match x with | .js f _ => some f | _ => none) (fun x hx => ?_)
      (fun a b x y ha hb => ?_) (fun a b x y ha hb => ?_)
    · cases x <;> first | exact ⟨_, rfl, hx.1⟩ | exact nomatch (hx.2 : (_ : Int) = _)
    · cases a <;> cases b <;> simp_all [frameInner]
    · cases a <;> cases b <;> simp_all [compared]

/-- C114: comparing two frames of any types always succeeds, and for frames with numbers below 2^31 the results are a total order
on what is compared of the frames, in which frames of different types are never equal. -/
theorem C114_frame_cmp_partial : ∃ c : Frame → Frame → Int, (∀ f g : Frame, f.cmp g = .ok (c f g)) ∧ OrderOn SmallFrame c compared ∧
    ∀ f, (compared f).type = f.type := by
  have ty : ∀ f, (compared f).type = f.type := fun f => by cases f <;> rfl
  refine ⟨_, frame_cmp_eq, ?_, ty⟩
  refine (order_codes (fun f : Frame => f.type.code) (fun a b _ _ _ => frame_inner_order a)).congrKey fun a b => ?_
  simp only [Prod.mk.injEq, and_iff_right_iff_imp]
  intro h
  rw [← ty a, ← ty b, h]

example : SmallFrame (.java { name := some c!"a", fileLine := 3 } []) ∧ SmallFrame (.core { buildIdOffset := 7 } []) :=
  ⟨show Small 3 by decide, show Small 7 by decide⟩

/-- The types of which a stack trace can have more than one thread. -/
def Many : ReportType → Bool
  | .core | .java | .gdb => true
  | _ => false

/-- The comparison of two threads of the same type. -/
def threadInner : Thread → Thread → Int
  | .core t _, .core u _ => coreThreadCmp t u
  | .java t _, .java u _ => javaThreadCmp t u
  | .gdb t _, .gdb u _ => gdbThreadCmp t u
  | _, _ => 0

/-- The numbers of a thread and its frames are below 2^31. -/
def SmallThread : Thread → Prop
  | .core t _ => ∀ f ∈ t.frames, Small f.buildIdOffset
  | .java t _ => ∀ f ∈ t.frames, Small f.fileLine
  | .gdb t _ => Small t.number ∧ ∀ f ∈ t.frames, Small f.sourceLine ∧ Small f.number
  | _ => True

/-- What is compared of a thread: of gdb threads the number and the frames, of core threads the frames, of Java threads the name and
the first frame. -/
inductive ThreadKey where
  | core (l : List (Option Str × Nat × Option Str × Option Str × Option Str))
  | java (name : Option Str) (top : Option (Bool × Option Str × Option (Option Str × Option Str × Bool × Nat)))
  | gdb (number : Nat) (l : List (Option (Option Str × Option Str × Option Str × Nat × Option Str × Nat)))
  | other (type : ReportType)

/-- See `ThreadKey`. -/
def comparedThread : Thread → ThreadKey
  | .core t _ => .core (t.frames.map fun f => (f.buildId, f.buildIdOffset, f.functionName, f.fileName, f.fingerprint))
  | .java t _ => .java t.name (t.frames.head?.map javaKey)
  | .gdb t _ => .gdb t.number (t.frames.map gdbKey)
  | t => .other t.type

theorem thread_inner_order (a : Thread) (ha : Many a.type = true) :
    OrderOn (fun x => (SmallThread x ∧ Many x.type) ∧ x.type.code = a.type.code) threadInner comparedThread := by
  cases a with
  | core f n =>
    refine order_made C60_core_partial (fun x => match x with | .core f _ => some f | _ => none) (fun x hx => ?_)
      (fun a b x y ha hb => ?_) (fun a b x y ha hb => ?_)
    · cases x <;> first | exact ⟨_, rfl, hx.1.1⟩ | exact nomatch (hx.2 : (_ : Int) = _)
    · cases a <;> cases b <;> first | (cases ha; cases hb; rfl) | contradiction
    · cases a <;> cases b <;> first | (cases ha; cases hb; simp [comparedThread]) | contradiction
  | java f n =>
    refine order_made C60_java_partial (fun x => match x with | .java f _ => some f | _ => none) (fun x hx => ?_)
      (fun a b x y ha hb => ?_) (fun a b x y ha hb => ?_)
    · cases x <;> first | exact ⟨_, rfl, hx.1.1⟩ | exact nomatch (hx.2 : (_ : Int) = _)
    · cases a <;> cases b <;> first | (cases ha; cases hb; rfl) | contradiction
    · cases a <;> cases b <;> first | (cases ha; cases hb; simp [comparedThread]) | contradiction
  | gdb f n =>
    refine order_made C60_gdb_partial (fun x => match x with | .gdb f _ => some f | _ => none) (fun x hx => ?_)
      (fun a b x y ha hb => ?_) (fun a b x y ha hb => ?_)
    · cases x <;> first | exact ⟨_, rfl, hx.1.1⟩ | exact nomatch (hx.2 : (_ : Int) = _)
    · cases a <;> cases b <;> first | (cases ha; cases hb; rfl) | contradiction
    · cases a <;> cases b <;> first | (cases ha; cases hb; simp [comparedThread]) | contradiction
  | python _ => exact nomatch ha
  | koops _ => exact nomatch ha
  | ruby _ => exact nomatch ha
  | js _ => exact nomatch ha

/-- C114: threads of different types are compared by their types; two threads of one type are compared if it is core, Java or gdb,
and the process is aborted if it is one of the others, which have no comparison. Among threads with numbers below 2^31 the results are a
total order on what is compared of them. -/
theorem C114_thread_cmp_partial : ∃ c : Thread → Thread → Int,
    (∀ t u : Thread, t.cmp u = if t.type = u.type ∧ ¬ Many t.type then .abort else .ok (c t u)) ∧
    OrderOn (fun t => SmallThread t ∧ Many t.type) c comparedThread ∧
    (∀ t u : Thread, comparedThread t = comparedThread u → t.type = u.type) := by
  have ty : ∀ t u : Thread, comparedThread t = comparedThread u → t.type = u.type := by
    intro t u h
    cases t <;> cases u <;> first | rfl | cases h
  refine ⟨fun t u => if t.type.code ≠ u.type.code then t.type.code - u.type.code else threadInner t u, fun t u => ?_, ?_, ty⟩
  · cases t <;> cases u <;> rfl
  · refine (order_codes (fun f : Thread => f.type.code) (inner := threadInner) (key := comparedThread) (fun a _ ha _ _ => ?_)).congrKey fun a b => ?_
    · exact thread_inner_order a ha.2
    · simp only [Prod.mk.injEq, and_iff_right_iff_imp]
      intro h
      rw [ty a b h]

example : SmallThread (.gdb { number := 1, frames := [{ number := 0, sourceLine := 9 }] } []) ∧ Many .gdb :=
  ⟨⟨by decide, by decide⟩, rfl⟩

/-- C114 fails for comparing: two equal Python threads cannot be compared. -/
theorem C114_not_thread_cmp : ∃ t : Thread, t.cmp t = .abort := ⟨.python {}, rfl⟩

/-- C114 fails for the text of a frame: that of a gdb frame is never defined. -/
theorem C114_not_gdb_text (f : GdbFrame) (l : List GdbFrame) : (Frame.gdb f l).appendToStr = .ub := rfl

/-! ## Changing -/

theorem first_type {F : Type} (mk : F → List F → Frame) (ty : ReportType) (h : ∀ f l, (mk f l).type = ty) {l : List F} {f : Frame}
    (e : first mk l = some f) : f.type = ty := by
  cases l with
  | nil => cases e
  | cons a l => cases e; exact h a l

/-- C114, `sr_thread_set_frames`: NULL and frames of the type of the thread can be set; then they are the frames of the thread, whose
type, next thread and other attributes (the thread with no frames) are what they were. Frames of another type abort. -/
theorem C114_set_frames (t : Thread) (f : Option Frame) :
    ((∀ g, f = some g → g.type = t.type) → ∃ t', t.setFrames f = .ok t' ∧ t'.frames = .ok f ∧ t'.type = t.type ∧ t'.next = t.next ∧
      t'.setFrames none = t.setFrames none) ∧
    ((∃ g, f = some g ∧ g.type ≠ t.type) → t.setFrames f = .abort) := by
  constructor
  · intro h
    cases f with
    | none => cases t <;> exact ⟨_, rfl, rfl, rfl, rfl, rfl⟩
    | some g =>
      have hg := h g rfl
      cases t <;> cases g <;> first | exact ⟨_, rfl, rfl, rfl, rfl, rfl⟩ | exact nomatch hg
  · rintro ⟨g, rfl, hg⟩
    simp [Thread.setFrames, hg]

/-- C114, `sr_thread_set_next`: for types with many threads NULL and threads of the type can be set; then they are the next ones of the
thread, whose type, frames and other attributes are what they were. For the other types, and with a thread of another type, the
process is aborted. -/
theorem C114_set_next (t : Thread) (u : Option Thread) :
    ((Many t.type ∧ ∀ v, u = some v → v.type = t.type) → ∃ t', t.setNext u = .ok t' ∧ t'.next = .ok u ∧ t'.type = t.type ∧
      t'.frames = t.frames ∧ t'.dup = t.dup) ∧
    (¬ (Many t.type ∧ ∀ v, u = some v → v.type = t.type) → t.setNext u = .abort) := by
  constructor
  · rintro ⟨hm, h⟩
    cases u with
    | none => cases t <;> first | exact ⟨_, rfl, rfl, rfl, rfl, rfl⟩ | exact nomatch hm
    | some v =>
      have hv := h v rfl
      cases t <;> cases v <;> first | exact ⟨_, rfl, rfl, rfl, rfl, rfl⟩ | exact absurd hm Bool.false_ne_true | exact nomatch hv
  · intro h
    by_cases hu : u = none ∨ u.map Thread.type = some t.type
    · have hm : ¬ Many t.type := by
        intro hm
        refine h ⟨hm, fun v e => ?_⟩
        subst e
        simpa using hu
      unfold Thread.setNext
      rw [if_pos hu]
      cases t <;> first | rfl | exact absurd rfl hm
    · unfold Thread.setNext
      rw [if_neg hu]

/-- The stack trace has its own crash thread set: a core stack trace. -/
def HasCrash : Stacktrace → Prop
  | .core t => t.crashThread ≠ none
  | _ => False

/-- C114, `sr_stacktrace_set_threads`: for types with many threads NULL and threads of the type can be set; then they are the threads of
the stack trace, whose type is what it was. (A core stack trace must not have its own crash thread, which would be left dangling.) For the
other types, and with threads of another type, the process is aborted. -/
theorem C114_set_threads (s : Stacktrace) (u : Option Thread) :
    ((Many (typeOf s) ∧ (∀ v, u = some v → v.type = typeOf s) ∧ ¬ HasCrash s) →
      ∃ s', setThreads s u = .ok s' ∧ threads s' = .ok u ∧ typeOf s' = typeOf s ∧ setThreads s' none = setThreads s none) ∧
    (¬ (Many (typeOf s) ∧ ∀ v, u = some v → v.type = typeOf s) → setThreads s u = .abort) := by
  constructor
  · rintro ⟨hm, h, hc⟩
    cases s with
    | core t =>
      have hc' : t.crashThread = none := by simpa [HasCrash] using hc
      have base : ∀ l, setThreads (.core { t with threads := l }) none = .ok (.core { t with threads := [] }) := by
        intro l
        change (if t.crashThread = none then _ else _) = _
        rw [if_pos hc']
      cases u with
      | none =>
        refine ⟨.core { t with threads := [] }, base t.threads, rfl, rfl, (base []).trans (base t.threads).symm⟩
      | some v =>
        have hv := h v rfl
        cases v with
        | core a l =>
          refine ⟨.core { t with threads := a :: l }, ?_, rfl, rfl, (base _).trans (base t.threads).symm⟩
          change (if t.crashThread = none then _ else _) = _
          rw [if_pos hc']
        | _ => exact nomatch hv
    | java t =>
      cases u with
      | none => exact ⟨_, rfl, rfl, rfl, rfl⟩
      | some v =>
        have hv := h v rfl
        cases v <;> first | exact ⟨_, rfl, rfl, rfl, rfl⟩ | exact nomatch hv
    | gdb t =>
      cases u with
      | none => exact ⟨_, rfl, rfl, rfl, rfl⟩
      | some v =>
        have hv := h v rfl
        cases v <;> first | exact ⟨_, rfl, rfl, rfl, rfl⟩ | exact nomatch hv
    | python _ => exact nomatch hm
    | koops _ => exact nomatch hm
    | ruby _ => exact nomatch hm
    | js _ => exact nomatch hm
  · intro h
    by_cases hu : u = none ∨ u.map Thread.type = some (typeOf s)
    · have hm : ¬ Many (typeOf s) := by
        intro hm
        refine h ⟨hm, fun v e => ?_⟩
        subst e
        simpa using hu
      unfold setThreads
      rw [if_pos hu]
      cases s <;> first | rfl | exact absurd rfl hm
    · unfold setThreads
      rw [if_neg hu]

example : Many (typeOf (.core {})) ∧ (∀ v, some (Thread.core { frames := [{}] } [{}]) = some v → v.type = typeOf (.core {})) ∧
    ¬ HasCrash (.core {}) := ⟨rfl, fun v h => by cases h; rfl, by simp [HasCrash]⟩

/-! ## The crash thread -/

theorem threadAt_mem {T : Type} (mk : T → List T → Thread) : ∀ (l : List T) (i : Nat) (h : i < l.length),
    threadAt mk l (some i) = some (mk l[i] (l.drop (i + 1))) ∧ mk l[i] (l.drop (i + 1)) ∈ tails mk l := by
  intro l
  induction l with
  | nil => intro i h; simp at h
  | cons a l ih =>
    intro i h
    cases i with
    | zero => exact ⟨rfl, List.mem_cons_self ..⟩
    | succ i =>
      have := ih i (by simpa using h)
      exact ⟨this.1, List.mem_cons_of_mem _ this.2⟩

/-- C114, the crash thread: it is one of the threads of the stack trace; for types with one thread it is that one. -/
theorem C114_crash_thread (s : Stacktrace) (h : CrashIn s) :
    ∃ o, findCrashThread s = .ok o ∧ (∀ t, o = some t → t ∈ allThreads s) ∧ (¬ Many (typeOf s) → ∃ t, o = some t ∧ allThreads s = [t]) := by
  cases s with
  | core t =>
    change ∃ o, coreCrash t = .ok o ∧ _
    unfold coreCrash
    cases hc : Short.coreCrashThread t with
    | none => exact ⟨none, rfl, (fun _ h => by cases h), fun h => absurd rfl h⟩
    | some i =>
      have hi := coreCrashThread_lt h hc
      obtain ⟨e, m⟩ := threadAt_mem .core t.threads i hi
      refine ⟨_, if_pos hi, fun u hu => ?_, fun h => absurd rfl h⟩
      rw [e] at hu
      cases hu
      exact m
  | java t =>
    refine ⟨firstThread .java t.threads, rfl, fun u hu => ?_, fun h => absurd rfl h⟩
    cases ht : t.threads with
    | nil => rw [ht] at hu; cases hu
    | cons a l =>
      rw [ht] at hu
      cases hu
      simp only [allThreads, ht]
      exact List.mem_cons_self ..
  | gdb t =>
    refine ⟨threadAt .gdb t.threads (Crash.findCrashThread t), rfl, fun u hu => ?_, fun h => absurd rfl h⟩
    cases hc : Crash.findCrashThread t with
    | none => rw [hc] at hu; cases hu
    | some i =>
      rw [hc] at hu
      by_cases hi : i < t.threads.length
      · obtain ⟨e, m⟩ := threadAt_mem .gdb t.threads i hi
        rw [e] at hu
        cases hu
        exact m
      · simp only [threadAt, List.drop_eq_nil_of_le (Nat.not_lt.mp hi)] at hu
        cases hu
  | python t => exact ⟨_, rfl, (fun u hu => by cases hu; simp [allThreads]), fun _ => ⟨_, rfl, rfl⟩⟩
  | koops t => exact ⟨_, rfl, (fun u hu => by cases hu; simp [allThreads]), fun _ => ⟨_, rfl, rfl⟩⟩
  | ruby t => exact ⟨_, rfl, (fun u hu => by cases hu; simp [allThreads]), fun _ => ⟨_, rfl, rfl⟩⟩
  | js t => exact ⟨_, rfl, (fun u hu => by cases hu; simp [allThreads]), fun _ => ⟨_, rfl, rfl⟩⟩

/-! ## The duplication hash -/

/-- The frames of a thread as a list in memory. -/
def toHash : Thread → Hash.Thread
  | .core t _ => .core (Crash.nodes t.frames)
  | .python t => .python (Crash.nodes t.frames)
  | .koops t => .koops (Crash.nodes t.frames)
  | .java t _ => .java (Crash.nodes t.frames)
  | .gdb t _ => .gdb (Crash.nodes t.frames)
  | .ruby t => .ruby (Crash.nodes t.frames)
  | .js t => .js (Crash.nodes t.frames)

theorem dupLoop_val {F : Type} (text : F → Str) : ∀ (l m : List (Node F)) (n : Int) (buf : Str), l.map Node.val = m.map Node.val →
    Hash.dupLoop text n l buf = Hash.dupLoop text n m buf
  | [], [], _, _, _ => rfl
  | [], _ :: _, _, _, h => by simp at h
  | _ :: _, [], _, _, h => by simp at h
  | a :: l, b :: m, n, buf, h => by
    simp only [List.map_cons, List.cons.injEq] at h
    simp only [Hash.dupLoop, h.1]
    split
    · exact dupLoop_val text l m _ _ h.2
    · rfl

theorem nodes_val {F : Type} (l : List F) : (Crash.nodes l).map Node.val = l := by
  simp [Crash.nodes, Function.comp_def]

/-- The hash after the normalization. -/
def afterNormalize (sha1 : Str → Str) (t : Thread) (nframes : Int) (pre : Option Str) (fl : DupFlags) : Out (Option Str) := do
  let buf := pre.getD [] ++ (if fl.koopsCompat then [] else c!"Thread\n")
  let n := if nframes = 0 then 2147483647 else nframes
  let f ← t.frames
  let buf ← dupLoop fl (fuel f) n f buf
  if fl.koopsCompat && buf.isEmpty then .ok none
  else if fl.nohash then .ok (some buf)
  else .ok (some (sha1 buf))

theorem after_eq {F : Type} {mk : F → List F → Frame} {print : F → Out Str} {bt : F → Str} {dup : DupFlags → F → Str}
    (h : Kind mk print bt dup) (sha1 : Str → Str) (t : Thread) (u : Hash.Thread) (nframes : Int) (pre : Option Str) (fl : DupFlags)
    (l : List F) (e : framesOf t = first mk l) (m : List (Node F)) (hm : m.map Node.val = l)
    (hu : ∀ n buf, u.dupLoop fl n buf = Hash.dupLoop (dup fl) n m buf) :
    afterNormalize sha1 t nframes pre fl = duphashOf sha1 u nframes pre fl := by
  unfold afterNormalize duphashOf
  simp only [frames_eq, e, Out.bind_ok, h.fuel]
  rw [h.dupLoop fl l 0]
  simp only [Out.bind_ok, hu]
  rw [dupLoop_val (dup fl) _ m _ _ (by rw [hm]; exact nodes_val l)]

theorem norm_eq {F : Type} {mk : F → List F → Frame} {print : F → Out Str} {bt : F → Str} {dup : DupFlags → F → Str}
    (h : Kind mk print bt dup) (sha1 : Str → Str) (nframes : Int) (pre : Option Str) (fl : DupFlags)
    (norm : List (Node F) → Out (List (Node F))) (fs : List F) (tk : List F → Thread) (hk : List (Node F) → Hash.Thread)
    (e : ∀ l, framesOf (tk l) = first mk l) (hu : ∀ m n buf, (hk m).dupLoop fl n buf = Hash.dupLoop (dup fl) n m buf) :
    ((normalized norm fs >>= fun l => Out.ok (tk l)) >>= fun t => afterNormalize sha1 t nframes pre fl) =
      ((norm (Crash.nodes fs)).bind fun m => .ok (hk m)).bind fun t => duphashOf sha1 t nframes pre fl := by
  unfold normalized
  cases hn : norm (Crash.nodes fs) with
  | ok m => exact after_eq h sha1 _ _ nframes pre fl (m.map Node.val) (e _) m rfl (hu m)
  | abort => rfl
  | ub => rfl

/-- C114, the hash for finding duplicates is the one described for threads of the type (C19, C21, C22). -/
theorem C114_duphash (sha1 : Str → Str) (t : Thread) (n : Int) (pre : Option Str) (fl : DupFlags) :
    t.duphash sha1 n pre fl = Hash.duphash sha1 (toHash t) n pre fl := by
  unfold Thread.duphash Hash.duphash
  cases hn : fl.noNormalize with
  | true =>
    have key : ∀ t', t.dup = .ok t' → afterNormalize sha1 t' n pre fl = duphashOf sha1 (toHash t) n pre fl →
        (do
          let t ← t.dup
          let t ← if true = true then Out.ok t else t.normalize
          afterNormalize sha1 t n pre fl) = ((if true = true then Out.ok (toHash t) else (toHash t).normalize).bind fun t => duphashOf sha1 t n pre fl) := by
      intro t' h1 h2
      rw [h1]
      exact h2
    cases t with
    | core t l => exact key _ rfl (after_eq kind_core sha1 _ _ n pre fl t.frames rfl _ (nodes_val _) (fun _ _ => rfl))
    | python t => exact key _ rfl (after_eq kind_python sha1 _ _ n pre fl t.frames rfl _ (nodes_val _) (fun _ _ => rfl))
    | koops t => exact key _ rfl (after_eq kind_koops sha1 _ _ n pre fl t.frames rfl _ (nodes_val _) (fun _ _ => rfl))
    | java t l => exact key _ rfl (after_eq kind_java sha1 _ _ n pre fl t.frames rfl _ (nodes_val _) (fun _ _ => rfl))
    | gdb t l => exact key _ rfl (after_eq kind_gdb sha1 _ _ n pre fl t.frames rfl _ (nodes_val _) (fun _ _ => rfl))
    | ruby t => exact key _ rfl (after_eq kind_ruby sha1 _ _ n pre fl t.frames rfl _ (nodes_val _) (fun _ _ => rfl))
    | js t => exact key _ rfl (after_eq kind_js sha1 _ _ n pre fl t.frames rfl _ (nodes_val _) (fun _ _ => rfl))
  | false =>
    have key : ∀ t', t.dup = .ok t' → (t'.normalize >>= fun t => afterNormalize sha1 t n pre fl) =
          ((toHash t).normalize.bind fun t => duphashOf sha1 t n pre fl) →
        (do
          let t ← t.dup
          let t ← if false = true then Out.ok t else t.normalize
          afterNormalize sha1 t n pre fl) = ((if false = true then Out.ok (toHash t) else (toHash t).normalize).bind fun t => duphashOf sha1 t n pre fl) := by
      intro t' h1 h2
      rw [h1]
      exact h2
    cases t with
    | core t l => exact key _ rfl (norm_eq kind_core sha1 n pre fl normalizeCore t.frames (fun fs => .core { t with frames := fs } []) .core (fun _ => rfl) (fun _ _ _ => rfl))
    | python t => exact key _ rfl (after_eq kind_python sha1 (.python t) (.python (Crash.nodes t.frames)) n pre fl t.frames rfl _ (nodes_val _) (fun _ _ => rfl))
    | koops t => exact key _ rfl (norm_eq kind_koops sha1 n pre fl Koops.normalizeKoops t.frames (fun fs => .koops { t with frames := fs }) .koops (fun _ => rfl) (fun _ _ _ => rfl))
    | java t l => exact key _ rfl (after_eq kind_java sha1 (.java t []) (.java (Crash.nodes t.frames)) n pre fl t.frames rfl _ (nodes_val _) (fun _ _ => rfl))
    | gdb t l => exact key _ rfl (norm_eq kind_gdb sha1 n pre fl normalizeGdb t.frames (fun fs => .gdb { t with frames := fs } []) .gdb (fun _ => rfl) (fun _ _ _ => rfl))
    | ruby t => exact key _ rfl (after_eq kind_ruby sha1 (.ruby t) (.ruby (Crash.nodes t.frames)) n pre fl t.frames rfl _ (nodes_val _) (fun _ _ => rfl))
    | js t => exact key _ rfl (after_eq kind_js sha1 (.js t) (.js (Crash.nodes t.frames)) n pre fl t.frames rfl _ (nodes_val _) (fun _ _ => rfl))

/-- The comparison for distances described for each type (C24). -/
def distanceCmp : Frame → Frame → Int
  | .core f _, .core g _ => coreCmpDistance f g
  | .python f _, .python g _ => pythonCmpDistance f g
  | .koops f _, .koops g _ => koopsCmpDistance f g
  | .java f _, .java g _ => javaCmpDistance f g
  | .gdb f _, .gdb g _ => gdbCmpDistance f g
  | .ruby f _, .ruby g _ => rubyCmpDistance f g
  | .js f _, .js g _ => jsCmpDistance f g
  | _, _ => 0

/-- C114, the comparison for distances: that of the type for two frames of one type, and frames of different types are different. -/
theorem C114_cmp_distance (f g : Frame) :
    (f.type = g.type → f.cmpDistance g = .ok (distanceCmp f g)) ∧ (f.type ≠ g.type → ∃ c, f.cmpDistance g = .ok c ∧ c ≠ 0) := by
  constructor
  · intro h
    cases f <;> cases g <;> first | rfl | exact nomatch h
  · intro h
    have hc : f.type.code ≠ g.type.code := by
      intro e
      apply h
      revert e
      cases f.type <;> cases g.type <;> decide
    exact ⟨f.type.code - g.type.code, if_pos hc, by omega⟩

/-- C114, copies: a copy of a thread has its type and frames and no next thread, the same texts for the hashes, and is equal to the thread for
`sr_thread_cmp` where there is one. -/
theorem C114_dup (t : Thread) : ∃ u, t.dup = .ok u ∧ u.type = t.type ∧ u.frames = t.frames ∧ u.next = .ok none ∧ u.bthash = t.bthash ∧
    u.frameCount = t.frameCount ∧ ∀ v : Thread, v.cmp u = v.cmp t := by
  cases t <;> exact ⟨_, rfl, rfl, rfl, rfl, rfl, rfl, fun v => by cases v <;> rfl⟩

/-- C114, the reason is the one described for the type (C64), and gdb stack traces have none. -/
theorem C114_reason (t : Stacktrace) : getReason t = match t with | .gdb _ => .ok none | t => traceReason t := by
  cases t <;> rfl

end Satyr.Generic
