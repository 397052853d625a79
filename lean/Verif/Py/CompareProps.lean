import Verif.Py.CompareModel
import Verif.Py.MetricsProps
import Verif.Generic.Cmp
import Mathlib.Data.List.Forall2
/-!
# C126: comparing, measuring and hashing frames and threads in Python
-/
namespace Satyr.Py.Base
open Satyr.CStr Satyr.Frames Satyr.Normalize Satyr.Report Satyr.Generic Satyr.Distances
open Satyr.Hash (DupFlags)

/-! ## Specification -/

/-- A frame without those after it. -/
def bare : Frame → Frame
  | .core f _ => .core f []
  | .python f _ => .python f []
  | .koops f _ => .koops f []
  | .java f _ => .java f []
  | .gdb f _ => .gdb f []
  | .ruby f _ => .ruby f []
  | .js f _ => .js f []

/-- What a thread object shows in Python: `t` has the attributes of the object, and its frames are those of the Python list. (If the
list is empty, the C thread has no frames left from an earlier list.) -/
structure Shows (o : ThreadObj) (t : Thread) : Prop where
  frames : List.Forall₂ (fun i f => ∃ g, i = some g ∧ bare g = bare f) o.items (allFrames t)
  rest : o.thread.setFrames none = t.setFrames none
  stale : o.items = [] → allFrames o.thread = []

/-- The list has something else than frames of the type of the thread. -/
def BadItem (o : ThreadObj) : Prop := ∃ i ∈ o.items, ∀ f, i = some f → f.type ≠ o.thread.type

/-! ## The linked list -/

theorem mapM_pick {F : Type} {mk : F → List F → Frame} {pick : Frame → Option F}
    (hp : ∀ g f l, bare g = bare (mk f l) → pick g = some f) {items : List (Option Frame)} {fs : List F}
    (h : List.Forall₂ (fun i f => ∃ g, i = some g ∧ bare g = bare f) items (frameTails mk fs)) :
    items.mapM (fun i => i.bind pick) = some fs := by
  induction fs generalizing items with
  | nil =>
    cases h
    rfl
  | cons f fs ih =>
    cases h with
    | cons h1 h2 =>
      obtain ⟨g, rfl, hg⟩ := h1
      rw [List.mapM_cons]
      simp [hp g f fs hg, ih h2]

theorem linked_eq {F : Type} {mk : F → List F → Frame} {pick : Frame → Option F}
    (hp : ∀ g f l, bare g = bare (mk f l) → pick g = some f) {items : List (Option Frame)} {old fs : List F}
    (h : List.Forall₂ (fun i f => ∃ g, i = some g ∧ bare g = bare f) items (frameTails mk fs))
    (hs : items = [] → frameTails mk old = []) : linked pick old items = some fs := by
  unfold linked
  rw [mapM_pick hp h]
  cases fs with
  | nil =>
    cases h
    cases old with
    | nil => rfl
    | cons => exact nomatch hs rfl
  | cons => rfl

/-- The thread without its frames. -/
def noFrames : Thread → Thread
  | .core t n => .core { t with frames := [] } n
  | .python t => .python { t with frames := [] }
  | .koops t => .koops { t with frames := [] }
  | .java t n => .java { t with frames := [] } n
  | .gdb t n => .gdb { t with frames := [] } n
  | .ruby t => .ruby { t with frames := [] }
  | .js t => .js { t with frames := [] }

theorem setFrames_none (t : Thread) : t.setFrames none = .ok (noFrames t) := by cases t <;> rfl

/-- C126: before any call the library has exactly the thread that Python shows. -/
theorem prepare_eq {o : ThreadObj} {t : Thread} (h : Shows o t) : o.prepare = some t := by
  obtain ⟨x, items⟩ := o
  obtain ⟨h1, h2, h3⟩ := h
  rw [setFrames_none, setFrames_none] at h2
  injection h2 with h2
  unfold ThreadObj.prepare
  cases x with
  | core a n =>
    cases t <;> simp only [noFrames, Thread.core.injEq, reduceCtorEq] at h2
    rename_i b m
    obtain ⟨h4, rfl⟩ := h2
    dsimp only
    rw [linked_eq (mk := .core) (by intro g f l e; cases g <;> cases e; rfl) h1 h3]
    have : ({ a with frames := b.frames } : CoreThread) = { ({ a with frames := [] } : CoreThread) with frames := b.frames } := rfl
    dsimp only [Option.map]
    rw [this, h4]
  | python a =>
    cases t <;> simp only [noFrames, Thread.python.injEq, reduceCtorEq] at h2
    rename_i b
    dsimp only
    rw [linked_eq (mk := .python) (by intro g f l e; cases g <;> cases e; rfl) h1 h3]
    have : ({ a with frames := b.frames } : PythonTrace) = { ({ a with frames := [] } : PythonTrace) with frames := b.frames } := rfl
    dsimp only [Option.map]
    rw [this, h2]
  | koops a =>
    cases t <;> simp only [noFrames, Thread.koops.injEq, reduceCtorEq] at h2
    rename_i b
    dsimp only
    rw [linked_eq (mk := .koops) (by intro g f l e; cases g <;> cases e; rfl) h1 h3]
    have : ({ a with frames := b.frames } : KoopsTrace) = { ({ a with frames := [] } : KoopsTrace) with frames := b.frames } := rfl
    dsimp only [Option.map]
    rw [this, h2]
  | java a n =>
    cases t <;> simp only [noFrames, Thread.java.injEq, reduceCtorEq] at h2
    rename_i b m
    obtain ⟨h4, rfl⟩ := h2
    dsimp only
    rw [linked_eq (mk := .java) (by intro g f l e; cases g <;> cases e; rfl) h1 h3]
    have : ({ a with frames := b.frames } : JavaThread) = { ({ a with frames := [] } : JavaThread) with frames := b.frames } := rfl
    dsimp only [Option.map]
    rw [this, h4]
  | gdb a n =>
    cases t <;> simp only [noFrames, Thread.gdb.injEq, reduceCtorEq] at h2
    rename_i b m
    obtain ⟨h4, rfl⟩ := h2
    dsimp only
    rw [linked_eq (mk := .gdb) (by intro g f l e; cases g <;> cases e; rfl) h1 h3]
    have : ({ a with frames := b.frames } : GdbThread) = { ({ a with frames := [] } : GdbThread) with frames := b.frames } := rfl
    dsimp only [Option.map]
    rw [this, h4]
  | ruby a =>
    cases t <;> simp only [noFrames, Thread.ruby.injEq, reduceCtorEq] at h2
    rename_i b
    dsimp only
    rw [linked_eq (mk := .ruby) (by intro g f l e; cases g <;> cases e; rfl) h1 h3]
    have : ({ a with frames := b.frames } : RubyTrace) = { ({ a with frames := [] } : RubyTrace) with frames := b.frames } := rfl
    dsimp only [Option.map]
    rw [this, h2]
  | js a =>
    cases t <;> simp only [noFrames, Thread.js.injEq, reduceCtorEq] at h2
    rename_i b
    dsimp only
    rw [linked_eq (mk := .js) (by intro g f l e; cases g <;> cases e; rfl) h1 h3]
    have : ({ a with frames := b.frames } : JsTrace) = { ({ a with frames := [] } : JsTrace) with frames := b.frames } := rfl
    dsimp only [Option.map]
    rw [this, h2]

theorem mapM_none {F : Type} {pick : Frame → Option F} {items : List (Option Frame)} {i : Option Frame} (hi : i ∈ items)
    (h : i.bind pick = none) : items.mapM (fun i => i.bind pick) = none := by
  induction items with
  | nil => cases hi
  | cons a l ih =>
    rw [List.mapM_cons]
    rcases List.mem_cons.1 hi with rfl | hi
    · simp [h]
    · cases a.bind pick <;> simp [ih hi]

/-- C126: a list with anything else than frames of the type is refused. -/
theorem prepare_bad {o : ThreadObj} (h : BadItem o) : o.prepare = none := by
  obtain ⟨x, items⟩ := o
  obtain ⟨i, hi, h⟩ := h
  have key : ∀ {F : Type} {pick : Frame → Option F} {old : List F}, i.bind pick = none → linked pick old items = none := by
    intro F pick old hp
    unfold linked
    rw [mapM_none hi hp]
  unfold ThreadObj.prepare
  cases x <;> dsimp only <;> rw [key] <;> first | rfl | skip
  all_goals
    cases i with
    | none => rfl
    | some f => cases f <;> first | rfl | exact absurd rfl (h _ rfl)

theorem shows_type {o : ThreadObj} {t : Thread} (h : Shows o t) : o.thread.type = t.type := by
  have h2 := h.rest
  rw [setFrames_none, setFrames_none] at h2
  injection h2 with h2
  have : ∀ t, (noFrames t).type = t.type := by intro t; cases t <;> rfl
  rw [← this, h2, this]

/-! ## C126: equality -/

theorem normalizeCmp_zero (n : Int) : normalizeCmp n = 0 ↔ n = 0 := by
  unfold normalizeCmp
  split
  · omega
  · split <;> omega

/-- C126: `f.equals(g)` for frames with numbers below 2^31 says whether they are frames of the same type with the same contents, as far
as these are compared (`compared`, see C23). `diff` is the difference of the addresses of the classes. -/
theorem C126_frame_equals_partial (diff : ReportType → ReportType → Int) (hd : ∀ a b, a ≠ b → diff a b ≠ 0) (f g : Frame)
    (hf : SmallFrame f) (hg : SmallFrame g) : frameEquals diff f (.frame g) = .ok (.ok (decide (compared f = compared g))) := by
  obtain ⟨c, h1, h2, h3⟩ := C114_frame_cmp_partial
  unfold frameEquals frameCmp
  dsimp only
  by_cases ht : f.type = g.type
  · rw [if_neg (by simpa using ht), h1, Out.bind_ok, Out.bind_ok]
    congr 2
    rw [decide_eq_decide, normalizeCmp_zero]
    exact h2.zero_iff f g hf hg
  · rw [if_pos ht, Out.bind_ok]
    congr 2
    rw [decide_eq_decide, normalizeCmp_zero]
    constructor
    · intro h; exact absurd h (hd _ _ ht)
    · intro h
      refine absurd ?_ ht
      rw [← h3 f, h, h3 g]

/-- C126: other objects are refused. -/
theorem C126_frame_equals_other (diff : ReportType → ReportType → Int) (f : Frame) (a : Arg) (h : ∀ g, a ≠ .frame g) :
    frameEquals diff f a = .ok (.error .type) := by
  cases a with
  | frame g => exact absurd rfl (h g)
  | thread => rfl
  | other => rfl

/-- C126: `t.equals(u)` for threads of gdb, core and Java stack traces, or threads of different types: whether the threads that Python
shows have the same type and the same contents, as far as these are compared (`comparedThread`, see C60). -/
theorem C126_thread_equals_partial (diff : ReportType → ReportType → Int) (hd : ∀ a b, a ≠ b → diff a b ≠ 0) (o p : ThreadObj)
    (t u : Thread) (ho : Shows o t) (hp : Shows p u) (ht : SmallThread t ∧ Many t.type) (hu : SmallThread u ∧ Many u.type) :
    ∃ b, threadEquals diff o (.thread p) = .ok (.ok b) ∧ (b = true ↔ comparedThread t = comparedThread u) := by
  obtain ⟨c, h1, h2, h3⟩ := C114_thread_cmp_partial
  unfold threadEquals threadCmp
  dsimp only
  rw [shows_type ho, shows_type hp]
  by_cases he : t.type = u.type
  · rw [if_neg (by simpa using he), prepare_eq ho, prepare_eq hp]
    dsimp only
    rw [h1, if_neg (by simp [ht.2]), Out.bind_ok, Out.bind_ok]
    refine ⟨_, rfl, ?_⟩
    rw [decide_eq_true_iff, normalizeCmp_zero]
    exact h2.zero_iff t u ht hu
  · rw [if_pos he, Out.bind_ok]
    refine ⟨_, rfl, ?_⟩
    rw [decide_eq_true_iff, normalizeCmp_zero]
    constructor
    · intro h; exact absurd h (hd _ _ he)
    · intro h; exact absurd (h3 _ _ h) he

/-- C126: threads of different types are different, whatever their lists. -/
theorem C126_thread_equals_types (diff : ReportType → ReportType → Int) (hd : ∀ a b, a ≠ b → diff a b ≠ 0) (o p : ThreadObj)
    (h : o.thread.type ≠ p.thread.type) : threadEquals diff o (.thread p) = .ok (.ok false) := by
  unfold threadEquals threadCmp
  dsimp only
  rw [if_pos h, Out.bind_ok]
  have : normalizeCmp (diff o.thread.type p.thread.type) ≠ 0 := fun e => hd _ _ h ((normalizeCmp_zero _).1 e)
  simp [this]

/-- C126: other objects are refused. -/
theorem C126_thread_equals_other (diff : ReportType → ReportType → Int) (t : ThreadObj) (a : Arg) (h : ∀ u, a ≠ .thread u) :
    threadEquals diff t a = .ok (.error .type) := by
  cases a with
  | thread g => exact absurd rfl (h g)
  | frame => rfl
  | other => rfl

/-- C126 is false for stack traces with one thread: comparing two of them aborts the interpreter. -/
theorem C126_not_single (diff : ReportType → ReportType → Int) (o p : ThreadObj) (t u : Thread) (ho : Shows o t) (hp : Shows p u)
    (he : t.type = u.type) (ht : ¬ Many t.type) : threadEquals diff o (.thread p) = .abort := by
  obtain ⟨c, h1, h2, h3⟩ := C114_thread_cmp_partial
  unfold threadEquals threadCmp
  dsimp only
  rw [shows_type ho, shows_type hp, if_neg (by simpa using he), prepare_eq ho, prepare_eq hp]
  dsimp only
  rw [h1, if_pos ⟨he, ht⟩]
  rfl

/-- C126 is false for lists with wrong items: instead of a type error there is an error of the interpreter. -/
theorem C126_not_type_error (diff : ReportType → ReportType → Int) (o p : ThreadObj) (h : o.thread.type = p.thread.type)
    (hb : BadItem o ∨ BadItem p) : threadEquals diff o (.thread p) = .ok (.error .system) := by
  unfold threadEquals threadCmp
  dsimp only
  rw [if_neg (by simpa using h)]
  rcases hb with hb | hb
  · rw [prepare_bad hb]
    rfl
  · rw [prepare_bad hb]
    cases o.prepare <;> rfl

/-! ## C126: distances -/

/-- C126: `t.distance(u, type)` is the distance of the threads that Python shows. -/
theorem C126_distance {α : Type} (dist : DistType → Thread → Thread → α) (o p : ThreadObj) (t u : Thread) (ho : Shows o t)
    (hp : Shows p u) (he : t.type = u.type) (d : DistType) :
    distance dist o (.thread p) (distTypeNumber d) = .ok (dist d t u) := by
  have hi : intArg (distTypeNumber d) = some (distTypeNumber d) := by cases d <;> rfl
  unfold distance
  dsimp only
  rw [hi, prepare_eq ho, prepare_eq hp, shows_type ho, shows_type hp]
  dsimp only
  rw [if_neg (by simpa using he)]
  cases d <;> rfl

/-- C126: all other arguments are refused, each with its exception. -/
theorem C126_distance_refused {α : Type} (dist : DistType → Thread → Thread → α) (o : ThreadObj) :
    (∀ a n, (∀ p, a ≠ .thread p) → distance dist o a n = .error .type) ∧
    (∀ p n, n < -2 ^ 31 ∨ 2 ^ 31 ≤ n → distance dist o (.thread p) n = .error .overflow) ∧
    (∀ p (n : Int), -2 ^ 31 ≤ n → n < 2 ^ 31 → BadItem o ∨ BadItem p → distance dist o (.thread p) n = .error .type) ∧
    (∀ p t u (n : Int), -2 ^ 31 ≤ n → n < 2 ^ 31 → Shows o t → Shows p u → t.type ≠ u.type →
      distance dist o (.thread p) n = .error .type) ∧
    (∀ p t u (n : Int), -2 ^ 31 ≤ n → n < 2 ^ 31 → Shows o t → Shows p u → t.type = u.type → n < 0 ∨ 3 < n →
      distance dist o (.thread p) n = .error .value) := by
  have hi : ∀ n : Int, -2 ^ 31 ≤ n → n < 2 ^ 31 → intArg n = some n := by
    intro n h1 h2
    unfold intArg
    rw [if_pos (by omega)]
  refine ⟨?_, ?_, ?_, ?_, ?_⟩
  · intro a n h
    cases a with
    | thread p => exact absurd rfl (h p)
    | frame => rfl
    | other => rfl
  · intro p n h
    have : intArg n = none := by
      unfold intArg
      rw [if_neg (by omega)]
    unfold distance
    dsimp only
    rw [this]
  · intro p n h1 h2 hb
    unfold distance
    dsimp only
    rw [hi n h1 h2]
    rcases hb with hb | hb
    · rw [prepare_bad hb]
    · rw [prepare_bad hb]
      cases o.prepare <;> rfl
  · intro p t u n h1 h2 ho hp hne
    unfold distance
    dsimp only
    rw [hi n h1 h2, prepare_eq ho, prepare_eq hp, shows_type ho, shows_type hp]
    dsimp only
    rw [if_pos hne]
  · intro p t u n h1 h2 ho hp he hn
    unfold distance
    dsimp only
    rw [hi n h1 h2, prepare_eq ho, prepare_eq hp, shows_type ho, shows_type hp]
    dsimp only
    rw [if_neg (by simpa using he)]
    have : distTypeOf n = none := by
      unfold distTypeOf
      rw [if_neg (by omega), if_neg (by omega), if_neg (by omega), if_neg (by omega)]
    rw [this]

/-- C126: the method gives the same distance as the matrix of the two threads (C109), for every distance type that the matrix knows. -/
theorem C126_distance_matrix {α : Type} (zero : α) (dist : DistType → Thread → Thread → α) (o p : ThreadObj) (t u : Thread)
    (ho : Shows o t) (hp : Shows p u) (he : t.type = u.type) (n : Int) (d : DistType) (hd : metric n = some d) :
    ∃ m x, distancesOfThreads dist (fun t : Thread => t.type.code.toNat) (fun _ => true) [some t, some u] 1 n = .ok (some m) ∧
      getDistance zero m 0 1 = .ok (some x) ∧ distance dist o (.thread p) n = .ok x := by
  have hn : n = distTypeNumber d := by
    unfold metric at hd
    split at hd <;> cases hd <;> rfl
  obtain ⟨m, h1, h2, h3⟩ := C109_threads zero dist (fun t : Thread => t.type.code.toNat) (fun _ => true) [t, u] [some t, some u] 1 n d
    ⟨rfl, by simp, by simp [he]⟩ (by simp) (by simp) (by omega) (by omega) hd
  refine ⟨m, dist d t u, h1, ?_, ?_⟩
  · have := h3 0 1 t u (by rw [h2]; simp) rfl rfl
    simpa using this
  · rw [hn]
    exact C126_distance dist o p t u ho hp he d

/-! ## C126: hashes -/

theorem intArg_some {n : Int} (h1 : -2 ^ 31 ≤ n) (h2 : n < 2 ^ 31) : intArg n = some n := by
  unfold intArg
  rw [if_pos (by omega)]

/-- The number for flags: 1 is the normal hash, 2 the text instead of its hash, 4 no normalization, 8 the old form for kernel oopses. -/
def flagNumber (normal nohash noNormalize koopsCompat : Bool) : Int :=
  normal.toNat + 2 * nohash.toNat + 4 * noNormalize.toNat + 8 * koopsCompat.toNat

theorem flagNumber_int (a b c d : Bool) : intArg (flagNumber a b c d) = some (flagNumber a b c d) := by
  have h : 0 ≤ flagNumber a b c d ∧ flagNumber a b c d < 16 := by
    unfold flagNumber
    cases a <;> cases b <;> cases c <;> cases d <;> simp
  exact intArg_some (by omega) (by omega)

/-- C126: `t.get_duphash(frames, flags, prefix)` is the duplication hash (C19) of the thread that Python shows. -/
theorem C126_duphash (sha1 : Str → Str) (o : ThreadObj) (t : Thread) (h : Shows o t) (n : Int) (h1 : -2 ^ 31 ≤ n) (h2 : n < 2 ^ 31)
    (a b c d : Bool) (pre : Option Str) (r : Option Str)
    (hr : Hash.duphash sha1 (toHash t) n pre { nohash := b, noNormalize := c, koopsCompat := d } = .ok r) :
    (r = none → getDuphash sha1 o n (flagNumber a b c d) pre = .ok (.error .runtime)) ∧
    ∀ x, r = some x → getDuphash sha1 o n (flagNumber a b c d) pre = .ok (.ok x) := by
  have hf : dupFlags (flagNumber a b c d) = { nohash := b, noNormalize := c, koopsCompat := d } := by
    cases a <;> cases b <;> cases c <;> cases d <;> rfl
  have hi := flagNumber_int a b c d
  unfold getDuphash
  rw [intArg_some h1 h2, hi, prepare_eq h]
  dsimp only
  rw [hf, C114_duphash, hr, Out.bind_ok]
  cases r <;> simp

/-- C126: `s.get_bthash(flags)` of a stack trace with one thread is the backtrace hash (C20) of what Python shows. -/
theorem C126_bthash (sha1 : Str → Str) (o : ThreadObj) (t : Thread) (s : Stacktrace) (h : Shows o t) (hs : asTrace t = some s)
    (normal : Bool) :
    getBthash sha1 o (flagNumber normal false false false) = .ok (.ok (sha1 (bthashText s))) ∧
    getBthash sha1 o (flagNumber normal true false false) = .ok (.ok (bthashText s)) := by
  obtain ⟨h1, h2⟩ := C114_bthash sha1 s
  have hb : ∀ b, bit (flagNumber normal b false false) 1 = b := by cases normal <;> decide
  have key : ∀ (f : Int) (b : Bool), intArg f = some f → bit f 1 = b →
      getBthash sha1 o f = (do let h ← Generic.getBthash sha1 s b; .ok (.ok h)) := by
    intro f b hf hb
    unfold getBthash
    rw [hf, prepare_eq h]
    dsimp only
    rw [hs]
    dsimp only
    rw [hb]
  constructor
  · rw [key _ _ (flagNumber_int _ _ _ _) (hb false), h2, Out.bind_ok]
  · rw [key _ _ (flagNumber_int _ _ _ _) (hb true), h1, Out.bind_ok]

/-- C126: `s.to_short_text(max)` of a stack trace with one thread is the short text (C76) of what Python shows; there always is one. -/
theorem C126_short_text (o : ThreadObj) (t : Thread) (s : Stacktrace) (h : Shows o t) (hs : asTrace t = some s) (n : Int)
    (h1 : -2 ^ 31 ≤ n) (h2 : n < 2 ^ 31) (r : Option Str) (hr : shortTextSpec s n = .ok r) :
    ∃ x, r = some x ∧ toShortText o n = .ok (.ok x) := by
  have hc : CrashIn s := by
    cases t <;> first | (cases hs; exact True.intro) | contradiction
  have hx : ∃ x, r = some x := by
    have hl : ∀ {F : Type} {print : F → Out Str} {l : List F}, Short.shortText print (some l) n = .ok r → ∃ x, r = some x := by
      intro F print l hr
      unfold Short.shortText at hr
      cases hq : Short.shortLoop print n 0 l with
      | ok y => simp only [hq, Out.bind_ok] at hr; exact ⟨y, by injection hr with hr; exact hr.symm⟩
      | abort => simp only [hq] at hr; cases hr
      | ub => simp only [hq] at hr; cases hr
    cases t <;> first | contradiction | (cases hs; exact hl hr)
  obtain ⟨x, rfl⟩ := hx
  refine ⟨x, rfl, ?_⟩
  unfold toShortText
  rw [intArg_some h1 h2, prepare_eq h]
  dsimp only
  rw [hs]
  dsimp only
  rw [C114_short_text s hc, hr, Out.bind_ok]

/-! ## C126: reading JSON -/

theorem toItems_eq {F : Type} {mk : F → List F → Frame} (h : ∀ f l, (mk f l).next = .ok (first mk l)) : ∀ l : List F,
    toItems (first mk l) (l.length + 1) = .ok ((frameTails mk l).map some)
  | [] => rfl
  | f :: l => by
    have ih := toItems_eq h l
    show (do let g ← (mk f l).next; let r ← toItems g (l.length + 1); Out.ok (some (mk f l) :: r)) = _
    rw [h, Out.bind_ok, ih, Out.bind_ok]
    rfl

theorem shows_self (t : Thread) : Shows { thread := t, items := (allFrames t).map some } t := by
  refine ⟨?_, rfl, ?_⟩
  · rw [List.forall₂_map_left_iff]
    exact List.forall₂_same.2 fun f _ => ⟨f, rfl, rfl⟩
  · intro h
    simpa using h

/-- A new object for a stack trace with one thread shows it. -/
theorem ofTrace_eq (t : Thread) (s : Stacktrace) (hs : asTrace t = some s) :
    ofTrace s = .ok { thread := t, items := (allFrames t).map some } := by
  cases t with
  | core => exact nomatch hs
  | java => exact nomatch hs
  | gdb => exact nomatch hs
  | python t =>
    cases hs
    show (do let items ← toItems (first .python t.frames) (fuel (first .python t.frames)); Out.ok _) = _
    rw [kind_python.fuel, toItems_eq kind_python.next, Out.bind_ok]
    rfl
  | koops t =>
    cases hs
    show (do let items ← toItems (first .koops t.frames) (fuel (first .koops t.frames)); Out.ok _) = _
    rw [kind_koops.fuel, toItems_eq kind_koops.next, Out.bind_ok]
    rfl
  | ruby t =>
    cases hs
    show (do let items ← toItems (first .ruby t.frames) (fuel (first .ruby t.frames)); Out.ok _) = _
    rw [kind_ruby.fuel, toItems_eq kind_ruby.next, Out.bind_ok]
    rfl
  | js t =>
    cases hs
    show (do let items ← toItems (first .js t.frames) (fuel (first .js t.frames)); Out.ok _) = _
    rw [kind_js.fuel, toItems_eq kind_js.next, Out.bind_ok]
    rfl

/-- C126: `Class.from_json(text)` gives an object that shows the stack trace that the library reads from the text, and a `ValueError`
for texts that the library refuses. -/
theorem C126_from_json_partial (type : ReportType) (ht : 0 < type.code ∧ ¬ Many type) (text : Str) (r : Option Stacktrace)
    (hr : fromJsonText type.code text = .ok r) :
    (r = none → fromJson type text = .ok (.error .value)) ∧
    ∀ s, r = some s → ¬ (type = .javascript ∧ hasPlatform text = true) →
      ∃ o t, fromJson type text = .ok (.ok o) ∧ Shows o t ∧ asTrace t = some s := by
  constructor
  · rintro rfl
    unfold fromJson
    rw [hr, Out.bind_ok]
  · rintro s rfl hp
    have hty : (typeOf s).code = type.code := (C114_type type.code text .null).2.2.2 s hr
    have ha : ∃ t, asTrace t = some s := by
      have hm := ht.2
      have h0 := ht.1
      cases s with
      | python t => exact ⟨.python t, rfl⟩
      | koops t => exact ⟨.koops t, rfl⟩
      | ruby t => exact ⟨.ruby t, rfl⟩
      | js t => exact ⟨.js t, rfl⟩
      | core t => cases type <;> first | exact absurd rfl hm | exact nomatch hty
      | java t => cases type <;> first | exact absurd rfl hm | exact nomatch hty
      | gdb t => cases type <;> first | exact absurd rfl hm | exact nomatch hty
    obtain ⟨t, ha⟩ := ha
    refine ⟨_, t, ?_, shows_self t, ha⟩
    unfold fromJson
    rw [hr, Out.bind_ok]
    dsimp only
    rw [if_neg hp, ofTrace_eq t s ha, Out.bind_ok]

/-- C126 is false for JavaScript stack traces with a platform, as the library writes them: a variable is used that has no value. -/
theorem C126_not_platform (text : Str) (s : Stacktrace) (hr : fromJsonText ReportType.javascript.code text = .ok (some s))
    (hp : hasPlatform text = true) : fromJson .javascript text = .ub := by
  unfold fromJson
  rw [hr, Out.bind_ok]
  dsimp only
  rw [if_pos ⟨rfl, hp⟩]

/-- C126 is false for a list from which all frames were removed: the methods go on with the old frames. -/
theorem C126_not_emptied {α : Type} (dist : DistType → Thread → Thread → α) (t : Thread) (a : Arg) (d : Int) :
    distance dist { thread := t, items := [] } a d = distance dist { thread := t, items := (allFrames t).map some } a d := by
  have h : ({ thread := t, items := [] } : ThreadObj).prepare = some t := by cases t <;> rfl
  unfold distance
  rw [h, prepare_eq (shows_self t)]

/-- C126 is false for the short text of gdb frames (see C114). -/
theorem C126_not_gdb_string (f : GdbFrame) (l : List GdbFrame) : shortString (.gdb f l) = .ub := rfl

/-! ## C126: concrete cases -/

def koopsObj : ThreadObj where
  thread := .koops { version := some c!"3.10" }
  items := [some (.koops { functionName := some c!"oops_end", reliable := true } []), some (.koops { functionName := some c!"die" } [])]

def koopsThread : Thread := .koops { version := some c!"3.10", frames := [{ functionName := some c!"oops_end", reliable := true },
  { functionName := some c!"die" }] }

example : Shows koopsObj koopsThread :=
  ⟨.cons ⟨_, rfl, rfl⟩ (.cons ⟨_, rfl, rfl⟩ .nil), rfl, fun h => nomatch h⟩

def coreObj (name : Str) : ThreadObj where
  thread := .core {} []
  items := [some (.core { buildId := some c!"abc", buildIdOffset := 16, functionName := some name } [])]

example (name : Str) : Shows (coreObj name) (.core { frames := [{ buildId := some c!"abc", buildIdOffset := 16, functionName := some name }] } []) :=
  ⟨.cons ⟨_, rfl, rfl⟩ .nil, rfl, fun h => nomatch h⟩

/-- The addresses of the classes differ. -/
def diff (a b : ReportType) : Int := a.code - b.code

example : threadEquals diff (coreObj c!"f") (.thread (coreObj c!"f")) = .ok (.ok true) := by decide +kernel
example : threadEquals diff (coreObj c!"f") (.thread (coreObj c!"g")) = .ok (.ok false) := by decide +kernel
example : threadEquals diff (coreObj c!"f") (.thread koopsObj) = .ok (.ok false) := by decide +kernel
example : threadEquals diff koopsObj (.thread koopsObj) = .abort := by decide +kernel
example : BadItem { thread := .core {} [], items := [none] } := ⟨none, by simp, by simp⟩
example : getDuphash (fun s => s) koopsObj 1 (flagNumber false true true false) none = .ok (.ok c!"Thread\noops_end\n") := by
  decide +kernel
example : fromJson .javascript c!"{\"platform\": {\"engine\": \"V8\", \"runtime\": \"Node.js\"}}" = .ub := by decide +kernel
example : ∃ o, fromJson .javascript c!"{\"stacktrace\": [{\"file_name\": \"a.js\", \"file_line\": 3}]}" = .ok (.ok o) := ⟨_, rfl⟩

end Satyr.Py.Base
