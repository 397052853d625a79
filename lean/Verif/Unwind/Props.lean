import Verif.Unwind.Model
import Verif.CStr.Props
import Verif.CStr.Idx
import Mathlib.Data.List.Forall2
import Mathlib.Data.List.Flatten
/-!
# Properties of unwinding

C92: a frame names the module and function at its address; C93: the stack trace of a core dump; C94: the stack trace made when the
kernel dumps a core; C95: the stack trace made of the output of gdb; C96: the signal; C97: the stack trace made by libunwind.
-/
namespace Satyr.Unwind
open Satyr.CStr Satyr.Normalize Satyr.Frames

/-! ## C92: frames -/

/-- The address that is looked up: one less for a return address. -/
def lookedUp (ip : Nat) (minusOne : Bool) : Nat := if minusOne then ip - 1 else ip

/-- The name that is shown for a symbol: C++ symbols, which start with `_Z`, are demangled if that is possible. -/
def Shown (ms : Modules) (s n : Str) : Prop :=
  ((∃ r, s = '_' :: 'Z' :: r) → n = (ms.demangle s).getD s) ∧ ((∀ r, s ≠ '_' :: 'Z' :: r) → n = s)

theorem minus_eq {a b : Nat} (h : b ≤ a) (ha : a < 2 ^ 64) : minus a b = a - b := by unfold minus; omega

theorem shown_self (ms : Modules) (s : Str) : Shown ms s ((demangle ms s).getD s) := by
  rw [Shown, demangle]
  constructor
  · rintro ⟨r, rfl⟩
    have hs : startsWith ('_' :: 'Z' :: r) c!"_Z" = true := (startsWith_split _ _).2 ⟨r, rfl⟩
    rw [if_pos hs]
  · intro h
    rw [if_neg]
    · rfl
    · intro hs
      obtain ⟨r, hr⟩ := (startsWith_split _ _).1 hs
      exact h r hr

theorem adjusted_eq {ip : Nat} {minusOne : Bool} (h0 : minusOne = true → 1 ≤ ip) (h1 : ip < 2 ^ 64) :
    minus ip (if minusOne then 1 else 0) = lookedUp ip minusOne := by
  cases minusOne with
  | false => exact minus_eq (Nat.zero_le _) h1
  | true => exact minus_eq (h0 rfl) h1

/-- C92: at an address without module, a frame has only the address. -/
theorem C92_unknown (ms : Modules) (ip : Nat) (minusOne : Bool) (h0 : minusOne = true → 1 ≤ ip) (h1 : ip < 2 ^ 64)
    (h : ms.at' (lookedUp ip minusOne) = none) :
    resolveFrame ms ip minusOne = { address := ip, buildIdOffset := ip, fingerprintHashed := true } := by
  have e := adjusted_eq h0 h1
  simp only [resolveFrame, e, h]
  rfl

theorem resolve_some {ms : Modules} {ip : Nat} {minusOne : Bool} {m : Module} {name : Str} {a : Nat}
    (e : minus ip (if minusOne then 1 else 0) = a) (h : ms.at' a = some m) (hn : m.name = some name) :
    resolveFrame ms ip minusOne =
      { address := ip
        buildId := if m.buildId ≠ [] then some (bin2hex m.buildId) else none
        buildIdOffset := minus ip m.start
        functionName := (m.symbol a).map fun s => (demangle ms s).getD s
        fileName := some (m.file.getD name)
        fingerprintHashed := true } := by
  simp only [resolveFrame, e, h, hn]
  generalize minus ip m.start = o
  cases m.symbol a <;> by_cases hb : m.buildId = [] <;> simp [hb, Json.Core.newFrame]

/-- C92: at an address of a module with a name, a frame has the address, its distance from the start of the module, the file of
the module (or its name, if there is no file), its build id in hexadecimal, from which the bytes can be had again, and the
function there, if it is known. -/
theorem C92_frame_partial (ms : Modules) (ip : Nat) (minusOne : Bool) (m : Module) (name : Str) (h0 : minusOne = true → 1 ≤ ip)
    (h1 : ip < 2 ^ 64) (h : ms.at' (lookedUp ip minusOne) = some m) (hn : m.name = some name) (hs : m.start ≤ ip) :
    (resolveFrame ms ip minusOne).address = ip ∧
    m.start + (resolveFrame ms ip minusOne).buildIdOffset = ip ∧
    (resolveFrame ms ip minusOne).fileName = some (m.file.getD name) ∧
    (m.buildId = [] → (resolveFrame ms ip minusOne).buildId = none) ∧
    (m.buildId ≠ [] → ∃ b, (resolveFrame ms ip minusOne).buildId = some b ∧ unhex b = some m.buildId) ∧
    (m.symbol (lookedUp ip minusOne) = none → (resolveFrame ms ip minusOne).functionName = none) ∧
    (∀ s, m.symbol (lookedUp ip minusOne) = some s →
      ∃ n, (resolveFrame ms ip minusOne).functionName = some n ∧ Shown ms s n) := by
  have eo : m.start + minus ip m.start = ip := by rw [minus_eq hs h1]; omega
  rw [resolve_some (adjusted_eq h0 h1) h hn]
  refine ⟨rfl, eo, rfl, fun hb => if_neg (fun h => h hb), fun hb => ⟨_, if_pos hb, (C30_bin2hex m.buildId).1⟩, fun hs => ?_,
    fun s hs => ⟨(demangle ms s).getD s, ?_, shown_self ms s⟩⟩
  · dsimp only; rw [hs]; rfl
  · dsimp only; rw [hs]; rfl

/-- C92 does not hold for a module without a name: the frame has its build id, but with the address instead of the distance from
the start of the module. -/
theorem C92_not_unnamed (ms : Modules) (ip : Nat) (m : Module) (h1 : ip < 2 ^ 64) (h : ms.at' ip = some m) (hn : m.name = none)
    (hb : m.buildId ≠ []) :
    (∃ b, (resolveFrame ms ip false).buildId = some b) ∧ (resolveFrame ms ip false).buildIdOffset = ip := by
  have e : minus ip (if false = true then 1 else 0) = ip := adjusted_eq (minusOne := false) (by simp) h1
  rw [resolveFrame]
  dsimp only
  rw [e, h]
  dsimp only
  rw [hn]
  cases m.symbol ip <;> simp [hb]

/-- A module at 0x1000 with a C function and a C++ function. -/
def sampleModules : Modules where
  at' := fun a => if 0x1000 ≤ a ∧ a < 0x2000 then
      some { start := 0x1000, buildId := [0xab, 0x01], name := some c!"libx", file := some c!"/usr/lib/libx.so"
             symbol := fun a => if a < 0x1100 then some c!"_Z1fv" else if a < 0x1200 then some c!"main" else
               if a < 0x1300 then some c!"__libc_start_main" else none }
    else none
  demangle := fun s => if s = c!"_Z1fv" then some c!"f()" else none

example : resolveFrame sampleModules 0x1100 true =
    ⟨0x1100, some c!"ab01", 0x100, some c!"f()", some c!"/usr/lib/libx.so", none, true⟩ := by decide +kernel
example : resolveFrame sampleModules 0x1100 false =
    ⟨0x1100, some c!"ab01", 0x100, some c!"main", some c!"/usr/lib/libx.so", none, true⟩ := by decide +kernel
example : resolveFrame sampleModules 0x2000 false = ⟨0x2000, none, 0x2000, none, none, none, true⟩ := by decide +kernel

/-! ## C96: the signal -/

/-- The note is the state of a thread (`NT_PRSTATUS`) of the kernel (`CORE`) of the right size. -/
def IsState (size : Nat) (n : Note) : Prop :=
  n.prstatus = true ∧ 5 ≤ n.nameSize ∧ n.descSize = some size ∧ ∃ r, n.name = some (c!"CORE\x00" ++ r)

instance (size : Nat) (n : Note) : Decidable (IsState size n) :=
  decidable_of_iff (n.prstatus = true ∧ 5 ≤ n.nameSize ∧ n.descSize = some size ∧ n.name.map (List.take 5) = some c!"CORE\x00") (by
    unfold IsState
    refine and_congr Iff.rfl (and_congr Iff.rfl (and_congr Iff.rfl ⟨fun h => ?_, fun ⟨r, h⟩ => by rw [h]; rfl⟩))
    cases hn : n.name with
    | none => rw [hn] at h; simp at h
    | some s =>
      rw [hn, Option.map_some, Option.some.injEq] at h
      exact ⟨s.drop 5, by rw [← h, List.take_append_drop]⟩)

theorem noteSignal_cons (size : Nat) (n : Note) (l : List Note) :
    noteSignal size (n :: l) = if IsState size n ∧ n.signal ≠ 0 then n.signal else noteSignal size l := by
  rw [noteSignal]
  by_cases h1 : n.prstatus = false ∨ n.nameSize < 5
  · rw [if_pos h1, if_neg]
    rintro ⟨⟨h2, h3, -⟩, -⟩
    rcases h1 with h | h
    · rw [h] at h2; simp at h2
    · omega
  · rw [if_neg h1]
    cases hname : n.name with
    | none => dsimp only; rw [if_neg]; rintro ⟨⟨-, -, -, r, h⟩, -⟩; rw [hname] at h; simp at h
    | some s =>
      cases hd : n.descSize with
      | none => dsimp only; rw [if_neg]; rintro ⟨⟨-, -, h, -⟩, -⟩; rw [hd] at h; simp at h
      | some d =>
        dsimp only
        have hst : IsState size n ↔ d = size ∧ s.take 5 = c!"CORE\x00" := by
          unfold IsState
          rw [hname, hd]
          refine ⟨fun ⟨_, _, h3, r, h4⟩ => ⟨by simpa using h3, ?_⟩, fun ⟨h3, h4⟩ => ⟨?_, by omega, by rw [h3], s.drop 5, ?_⟩⟩
          · rw [Option.some.injEq] at h4; rw [h4]; rfl
          · cases hp : n.prstatus
            · simp [hp] at h1
            · rfl
          · rw [← h4, List.take_append_drop]
        by_cases hlen : s.length < 5
        · rw [if_pos hlen, if_neg]
          rintro ⟨hi, -⟩
          have := congrArg List.length (hst.1 hi).2
          simp at this
          omega
        · rw [if_neg hlen]
          by_cases hc : s.take 5 = c!"CORE\x00"
          · rw [if_neg (fun h => h hc)]
            by_cases hs : d = size
            · rw [if_neg (fun h => h hs)]
              by_cases hz : n.signal = 0
              · rw [if_neg (fun h => h hz), if_neg (fun h => h.2 hz)]
              · rw [if_pos hz, if_pos ⟨hst.2 ⟨hs, hc⟩, hz⟩]
            · rw [if_pos hs, if_neg (fun h => hs (hst.1 h.1).1)]
          · rw [if_pos hc, if_neg (fun h => hc (hst.1 h.1).2)]

/-- The first signal of notes. -/
def IsFirst (size : Nat) (notes : List Note) (signal : Int) : Prop :=
  (signal = 0 ∧ ∀ n ∈ notes, IsState size n → n.signal = 0) ∨
  ∃ before n after, notes = before ++ n :: after ∧ IsState size n ∧ n.signal = signal ∧ signal ≠ 0 ∧
    ∀ x ∈ before, IsState size x → x.signal = 0

theorem noteSignal_spec (size : Nat) (l : List Note) : IsFirst size l (noteSignal size l) := by
  induction l with
  | nil => exact .inl ⟨rfl, by simp⟩
  | cons n l ih =>
    rw [noteSignal_cons]
    by_cases h : IsState size n ∧ n.signal ≠ 0
    · rw [if_pos h]; exact .inr ⟨[], n, l, rfl, h.1, rfl, h.2, by simp⟩
    · rw [if_neg h]
      have h' : IsState size n → n.signal = 0 := fun hi => by by_contra hz; exact h ⟨hi, hz⟩
      rcases ih with ⟨h1, h2⟩ | ⟨b, x, a, h1, h2, h3, h4, h5⟩
      · exact .inl ⟨h1, by simpa using ⟨h', h2⟩⟩
      · exact .inr ⟨n :: b, x, a, by rw [h1]; rfl, h2, h3, h4, by simpa using ⟨h', h5⟩⟩

theorem isFirst_append {size : Nat} {l l' : List Note} {s s' : Int} (h : IsFirst size l s) (h' : IsFirst size l' s') :
    IsFirst size (l ++ l') (if s ≠ 0 then s else s') := by
  rcases h with ⟨rfl, h2⟩ | ⟨b, x, a, h1, h2, h3, h4, h5⟩
  · rw [if_neg (by simp)]
    rcases h' with ⟨h1', h2'⟩ | ⟨b, x, a, h1', h2', h3', h4', h5'⟩
    · exact .inl ⟨h1', fun n hn => (List.mem_append.1 hn).elim (h2 n) (h2' n)⟩
    · exact .inr ⟨l ++ b, x, a, by rw [h1', List.append_assoc], h2', h3', h4',
        fun n hn => (List.mem_append.1 hn).elim (h2 n) (h5' n)⟩
  · rw [if_pos h4]
    exact .inr ⟨b, x, a ++ l', by rw [h1]; simp, h2, h3, h4, h5⟩

/-- C96: the signal is the first one that is not 0 in the states of threads in the notes, in the order in the file; 0 if there is
none. -/
theorem C96_signal (size : Nat) (l : List NoteSegment) :
    IsFirst size (l.flatMap (·.getD [])) (signalNumber size (some l)) := by
  change IsFirst size _ (signalFrom size l)
  induction l with
  | nil => exact .inl ⟨rfl, by simp⟩
  | cons o l ih =>
    cases o with
    | none => exact ih
    | some notes => exact isFirst_append (noteSignal_spec size notes) ih

example : signalNumber 336 (some [none, some [⟨true, 5, some c!"CORE\x00", some 336, 0⟩, ⟨false, 5, some c!"CORE\x00", some 336, 6⟩,
    ⟨true, 5, some c!"CORE\x00", some 100, 7⟩, ⟨true, 8, some c!"CORE\x00\x00\x00\x00", some 336, 11⟩,
    ⟨true, 5, some c!"CORE\x00", some 336, 3⟩]]) = 11 := by decide +kernel

/-! ## C93: core dumps -/

/-- A frame is not the start of the C library. -/
def notStart (f : CoreFrame) : Prop := f.functionName ≠ some c!"__libc_start_main"

/-- The frames of a stack: those of the program counters up to `__libc_start_main`, which is left out, as are all below; all of
these program counters are known. -/
def IsStack (ms : Modules) (l : List (Option (Nat × Bool))) (fs : List CoreFrame) : Prop :=
  ∃ (pcs : List (Nat × Bool)) (rest : List (Option (Nat × Bool))), l = pcs.map some ++ rest ∧ fs = pcs.map (fun p => resolveFrame ms p.1 p.2) ∧ (∀ f ∈ fs, notStart f) ∧
    (rest = [] ∨ ∃ p r, rest = some p :: r ∧ ¬ notStart (resolveFrame ms p.1 p.2))

/-- The last `n` items. -/
def lastN {α : Type} (n : Nat) (l : List α) : List α := l.drop (l.length - n)

theorem truncate_eq (l : List CoreFrame) : truncate l = lastN 256 l := by
  induction l with
  | nil => rfl
  | cons f l ih =>
    rw [truncate, lastN]
    by_cases h : (f :: l).length > frameLimit
    · rw [if_pos h, ih, lastN]
      have : (f :: l).length - 256 = (l.length - 256) + 1 := by
        rw [List.length_cons] at h ⊢; unfold frameLimit at h; omega
      rw [this, List.drop_succ_cons]
    · rw [if_neg h]
      have : (f :: l).length - 256 = 0 := by unfold frameLimit at h; omega
      rw [this]
      rfl

theorem lastN_eq {α : Type} (n : Nat) (l : List α) : lastN n l = l.drop (l.length - n) := rfl

attribute [local irreducible] lastN truncate

theorem getFrames_spec (ms : Modules) (l : List (Option (Nat × Bool))) :
    ((getFrames ms l).2 ≠ .aborted → IsStack ms l (getFrames ms l).1) ∧
    (∀ fs, IsStack ms l fs → (getFrames ms l).1 = fs ∧ (getFrames ms l).2 ≠ .aborted) ∧
    ((getFrames ms l).2 = .all ↔ ∃ pcs : List (Nat × Bool), l = pcs.map some ∧ ∀ p ∈ pcs, notStart (resolveFrame ms p.1 p.2)) := by
  induction l with
  | nil =>
    refine ⟨fun _ => ⟨[], [], rfl, rfl, by simp [getFrames], .inl rfl⟩, ?_, ⟨fun _ => ⟨[], rfl, by simp⟩, fun _ => rfl⟩⟩
    rintro fs ⟨pcs, rest, h1, rfl, -, -⟩
    have : pcs = [] := by
      cases pcs with
      | nil => rfl
      | cons p l => simp at h1
    subst this
    simp [getFrames]
  | cons o l ih =>
    cases o with
    | none =>
      refine ⟨fun h => absurd rfl h, ?_, ⟨fun h => by simp [getFrames] at h, ?_⟩⟩
      · rintro fs ⟨pcs, rest, h1, -, -, h4⟩
        cases pcs with
        | nil =>
          rw [List.map_nil, List.nil_append] at h1
          rcases h4 with h4 | ⟨p, r, h4, -⟩ <;> rw [h4] at h1 <;> simp at h1
        | cons p q => simp at h1
      · rintro ⟨pcs, h, -⟩
        cases pcs <;> simp at h
    | some p =>
      obtain ⟨pc, mo⟩ := p
      obtain ⟨i1, i2, i3⟩ := ih
      rw [getFrames]
      dsimp only
      by_cases hf : (resolveFrame ms pc mo).functionName = some c!"__libc_start_main"
      · rw [if_pos hf]
        refine ⟨fun _ => ⟨[], _, rfl, rfl, by simp, .inr ⟨_, l, rfl, fun h => h hf⟩⟩, ?_, ⟨fun h => by simp at h, ?_⟩⟩
        · rintro fs ⟨pcs, rest, h1, rfl, h3, -⟩
          cases pcs with
          | nil => simp
          | cons q pcs =>
            rw [List.map_cons, List.cons_append, List.cons.injEq, Option.some.injEq] at h1
            exact absurd hf (by have := h3 (resolveFrame ms q.1 q.2) (by simp); rw [← h1.1] at this; exact this)
        · rintro ⟨pcs, h, h'⟩
          cases pcs with
          | nil => simp at h
          | cons q pcs =>
            rw [List.map_cons, List.cons.injEq, Option.some.injEq] at h
            exact absurd hf (by have := h' q (by simp); rw [← h.1] at this; exact this)
      · rw [if_neg hf]
        refine ⟨fun h => ?_, ?_, ?_⟩
        · obtain ⟨pcs, rest, h1, h2, h3, h4⟩ := i1 h
          exact ⟨(pc, mo) :: pcs, rest, by rw [h1]; rfl, by rw [h2]; rfl, by simpa [notStart] using ⟨hf, h3⟩, h4⟩
        · rintro fs ⟨pcs, rest, h1, rfl, h3, h4⟩
          cases pcs with
          | nil =>
            rw [List.map_nil, List.nil_append] at h1
            rcases h4 with h4 | ⟨p, r, h4, h5⟩
            · rw [h4] at h1; simp at h1
            · rw [h4, List.cons.injEq, Option.some.injEq] at h1
              rw [← h1.1] at h5
              exact absurd hf h5
          | cons q pcs =>
            rw [List.map_cons, List.cons_append, List.cons.injEq, Option.some.injEq] at h1
            obtain ⟨hq, hl⟩ := h1
            have := i2 _ ⟨pcs, rest, hl, rfl, fun f hf' => h3 f (by rw [List.map_cons]; exact List.mem_cons_of_mem _ hf'), h4⟩
            refine ⟨?_, this.2⟩
            rw [this.1, ← hq, List.map_cons]
        · rw [i3]
          refine ⟨fun ⟨pcs, h, h'⟩ => ⟨(pc, mo) :: pcs, by rw [h]; rfl, fun p hp => ?_⟩, fun ⟨pcs, h, h'⟩ => ?_⟩
          · rcases List.mem_cons.1 hp with rfl | hp
            · exact hf
            · exact h' p hp
          cases pcs with
          | nil => simp at h
          | cons q pcs =>
            rw [List.map_cons, List.cons.injEq] at h
            exact ⟨pcs, h.2, fun p hp => h' p (by simp [hp])⟩

/-- What is made of a thread: its id, and the oldest 256 frames of its stack. -/
def IsThread (ms : Modules) (t : Thread) (c : CoreThread) : Prop :=
  c.id = t.id ∧ ∃ fs, IsStack ms t.frames fs ∧ c.frames = lastN 256 fs

theorem unwindThread_iff (ms : Modules) (t : Thread) (c : CoreThread) : unwindThread ms t = some c ↔ IsThread ms t c := by
  obtain ⟨h1, h2, -⟩ := getFrames_spec ms t.frames
  unfold unwindThread
  rcases hg : getFrames ms t.frames with ⟨l, s⟩
  rw [hg] at h1 h2
  dsimp only at h1 h2
  constructor
  · intro h
    cases s with
    | aborted => simp at h
    | all =>
      simp only [Option.some.injEq] at h
      subst h
      exact ⟨rfl, l, h1 (by simp), truncate_eq l⟩
    | stopped =>
      simp only [Option.some.injEq] at h
      subst h
      exact ⟨rfl, l, h1 (by simp), truncate_eq l⟩
  · rintro ⟨h3, fs, h4, h5⟩
    obtain ⟨rfl, h6⟩ := h2 fs h4
    obtain ⟨id, frames⟩ := c
    dsimp only at h3 h5
    subst h3
    subst h5
    cases s with
    | aborted => exact absurd rfl h6
    | all => simp [truncate_eq]
    | stopped => simp [truncate_eq]

theorem unwindThreads_iff (ms : Modules) (l : List Thread) (cs : List CoreThread) :
    unwindThreads ms l = some cs ↔ List.Forall₂ (IsThread ms) l cs := by
  induction l generalizing cs with
  | nil => rw [unwindThreads, List.forall₂_nil_left_iff, Option.some.injEq]; exact eq_comm
  | cons t l ih =>
    rw [unwindThreads, List.forall₂_cons_left_iff]
    constructor
    · intro h
      obtain ⟨x, hx, h⟩ := Option.bind_eq_some_iff.1 h
      obtain ⟨r, hr, h⟩ := Option.bind_eq_some_iff.1 h
      rw [Option.some.injEq] at h
      exact ⟨x, r, (unwindThread_iff ms t x).1 hx, (ih r).1 hr, h.symm⟩
    · rintro ⟨x, r, h1, h2, rfl⟩
      rw [(unwindThread_iff ms t x).2 h1, (ih r).2 h2]
      rfl

/-- The stack trace of a core dump. -/
def IsTrace (c : Core) (executable : Str) (t : CoreTrace) : Prop :=
  c.opens = true ∧ c.attaches = true ∧ c.ending = .finished ∧ List.Forall₂ (IsThread c.modules) c.threads t.threads ∧
  t.executable = some executable ∧ t.signal = toSignal (signalNumber c.prstatusSize c.notes) ∧
  t.crashThread = (if t.threads = [] then none else some 0) ∧ t.onlyCrashThread = false

/-- C93: a core dump gives a stack trace if and only if it can be opened and all program counters above `__libc_start_main` are
known; then the stack trace has the threads of the core dump, in their order, each with its id and the oldest 256 frames of its
stack, and with the signal and executable; the first thread is the crash thread. -/
theorem C93_trace (c : Core) (executable : Str) (t : CoreTrace) (m : Bool) :
    parseCoredump c executable = (some t, m) ↔ m = false ∧ IsTrace c executable t := by
  unfold parseCoredump IsTrace
  by_cases h1 : c.opens = false
  · rw [if_pos h1]; simp [h1]
  rw [if_neg h1]
  by_cases h2 : c.attaches = false
  · rw [if_pos h2]; simp [h2]
  rw [if_neg h2]
  have h1' : c.opens = true := by simpa using h1
  have h2' : c.attaches = true := by simpa using h2
  cases h3 : unwindThreads c.modules c.threads with
  | none =>
    simp only [Prod.mk.injEq, reduceCtorEq, false_and, false_iff]
    rintro ⟨-, -, -, -, h, -⟩
    rw [(unwindThreads_iff _ _ _).2 h] at h3
    simp at h3
  | some ts =>
    dsimp only
    by_cases h4 : c.ending = .broken
    · rw [if_pos h4]; simp [h4]
    · rw [if_neg h4]
      have h4' : c.ending = .finished := by
        cases h : c.ending with
        | broken => exact absurd h h4
        | finished => rfl
      rw [Prod.mk.injEq, Option.some.injEq]
      constructor
      · rintro ⟨rfl, rfl⟩
        exact ⟨rfl, h1', h2', h4', (unwindThreads_iff _ _ _).1 h3, rfl, rfl, rfl, rfl⟩
      · rintro ⟨rfl, -, -, -, h5, h6, h7, h8, h9⟩
        have h5' := (unwindThreads_iff _ _ _).2 h5
        rw [h3, Option.some.injEq] at h5'
        obtain ⟨a, b, d, e, f⟩ := t
        dsimp only at h5' h6 h7 h8 h9
        subst h5' h6 h7 h9
        rw [h8]
        exact ⟨rfl, rfl⟩

/-- C93: an error message is set if and only if there is no stack trace. -/
theorem C93_message (c : Core) (executable : Str) :
    (parseCoredump c executable).1 = none ↔ (parseCoredump c executable).2 = true := by
  unfold parseCoredump
  split
  · simp
  split
  · simp
  split
  · simp
  split <;> simp

/-- C93: a thread has at most 256 frames. -/
theorem C93_limit (c : Core) (executable : Str) (t : CoreTrace) (m : Bool) (h : parseCoredump c executable = (some t, m)) :
    ∀ x ∈ t.threads, x.frames.length ≤ 256 ∧ ∀ f ∈ x.frames, notStart f := by
  obtain ⟨-, -, -, -, h, -⟩ := (C93_trace c executable t m).1 h
  intro x hx
  obtain ⟨hl, hg⟩ := List.forall₂_iff_get.1 h
  obtain ⟨i, hi, rfl⟩ := List.getElem_of_mem hx
  obtain ⟨-, fs, ⟨pcs, rest, -, -, h3, -⟩, h2⟩ := hg i (by omega) hi
  rw [List.get_eq_getElem] at h2
  dsimp only at h2
  rw [h2, lastN_eq]
  refine ⟨by rw [List.length_drop]; omega, fun f hf => h3 f (List.mem_of_mem_drop hf)⟩

def sampleCore : Core where
  modules := sampleModules
  threads := [{ id := 7, frames := [some (0x1010, false), some (0x1111, true), some (0x1250, true), none] },
    { id := 8, frames := [some (0x3000, false)], ending := .broken }]
  notes := some [some [⟨true, 5, some c!"CORE\x00", some 336, 11⟩]]

example : parseCoredump sampleCore c!"/bin/x" = (some
    { signal := 11, executable := some c!"/bin/x", crashThread := some 0
      threads := [⟨7, [⟨0x1010, some c!"ab01", 0x10, some c!"f()", some c!"/usr/lib/libx.so", none, true⟩,
          ⟨0x1111, some c!"ab01", 0x111, some c!"main", some c!"/usr/lib/libx.so", none, true⟩]⟩,
        ⟨8, [⟨0x3000, none, 0x3000, none, none, none, true⟩]⟩] }, false) := by decide +kernel
example : parseCoredump { sampleCore with threads := [{ frames := [some (0x1010, false), none] }] } c!"/bin/x" = (none, true) := by
  decide +kernel

/-! ## C94: the hook of the kernel -/

/-- C94: when it is possible to attach to the crashed thread, the stack trace has this thread only, as the crash thread, with the
oldest 256 frames of its stack, the executable and the signal; this is so if and only if the program counters are known and the
stack was unwound to its end or to `__libc_start_main`. -/
theorem C94_trace_partial (ms : Modules) (t : Thread) (executable : Option Str) (signum : Int) (s : CoreTrace) (m : Bool) :
    fromCoreHook ms true t executable signum = (some s, m) ↔ m = false ∧
      (∃ x, s.threads = [x] ∧ IsThread ms t x) ∧ s.crashThread = some 0 ∧ s.onlyCrashThread = true ∧ s.executable = executable ∧
      s.signal = (if signum > 0 then toSignal signum else 0) ∧
      ¬ (t.ending = .broken ∧ ∃ pcs : List (Nat × Bool), t.frames = pcs.map some ∧ ∀ p ∈ pcs, notStart (resolveFrame ms p.1 p.2)) := by
  obtain ⟨h1, h2, h3⟩ := getFrames_spec ms t.frames
  rw [← h3]
  unfold fromCoreHook
  rw [if_neg (by simp)]
  rcases hg : getFrames ms t.frames with ⟨l, sn⟩
  rw [hg] at h1 h2
  dsimp only at h1 h2 ⊢
  cases sn with
  | aborted =>
    simp only [Prod.mk.injEq, reduceCtorEq, false_and, false_iff]
    rintro ⟨-, ⟨x, -, -, fs, h, -⟩, -⟩
    exact (h2 fs h).2 rfl
  | all =>
    dsimp only
    by_cases hb : t.ending = .broken
    · rw [if_pos ⟨rfl, hb⟩]; simp [hb]
    · rw [if_neg (fun h => hb h.2), Prod.mk.injEq, Option.some.injEq]
      constructor
      · rintro ⟨rfl, rfl⟩
        exact ⟨rfl, ⟨_, rfl, rfl, l, h1 (by simp), truncate_eq l⟩, rfl, rfl, rfl, rfl, fun h => hb h.1⟩
      · rintro ⟨rfl, ⟨x, h4, h5, fs, h6, h7⟩, h8, h9, h10, h11, -⟩
        obtain ⟨rfl, -⟩ := h2 fs h6
        obtain ⟨a, b, d, e, f⟩ := s
        obtain ⟨i, fr⟩ := x
        dsimp only at h4 h5 h7 h8 h9 h10 h11
        subst h4 h5 h7 h8 h9 h10 h11
        rw [truncate_eq]
        exact ⟨rfl, rfl⟩
  | stopped =>
    dsimp only
    rw [if_neg (by simp), Prod.mk.injEq, Option.some.injEq]
    constructor
    · rintro ⟨rfl, rfl⟩
      exact ⟨rfl, ⟨_, rfl, rfl, l, h1 (by simp), truncate_eq l⟩, rfl, rfl, rfl, rfl, fun h => by simp at h⟩
    · rintro ⟨rfl, ⟨x, h4, h5, fs, h6, h7⟩, h8, h9, h10, h11, -⟩
      obtain ⟨rfl, -⟩ := h2 fs h6
      obtain ⟨a, b, d, e, f⟩ := s
      obtain ⟨i, fr⟩ := x
      dsimp only at h4 h5 h7 h8 h9 h10 h11
      subst h4 h5 h7 h8 h9 h10 h11
      rw [truncate_eq]
      exact ⟨rfl, rfl⟩

/-- C94: when it is possible to attach, an error message is set if and only if there is no stack trace. -/
theorem C94_message_partial (ms : Modules) (t : Thread) (executable : Option Str) (signum : Int) :
    (fromCoreHook ms true t executable signum).1 = none ↔ (fromCoreHook ms true t executable signum).2 = true := by
  unfold fromCoreHook
  rw [if_neg (by simp)]
  split
  · simp
  split <;> simp

/-- C94 does not hold if it is not possible to attach: then there is an error message and also a stack trace, which has a thread
without frames and no crash thread. -/
theorem C94_not_failure (ms : Modules) (t : Thread) (executable : Option Str) (signum : Int) :
    ∃ s, fromCoreHook ms false t executable signum = (some s, true) ∧ s.threads = [{ id := t.id, frames := [] }] ∧
      s.crashThread = none := ⟨_, rfl, rfl, rfl⟩

example : fromCoreHook sampleModules true { id := 7, frames := [some (0x1010, false), some (0x1250, true), none] } none 11 = (some
    { signal := 11, crashThread := some 0, onlyCrashThread := true
      threads := [⟨7, [⟨0x1010, some c!"ab01", 0x10, some c!"f()", some c!"/usr/lib/libx.so", none, true⟩]⟩] }, false) := by
  decide +kernel

/-! ## C95: from gdb -/

/-- The frames that are not the mark of a signal handler. -/
def calls (l : List GdbFrame) : List GdbFrame := l.filter fun f => f.signalHandlerCalled = false

theorem gdbFrames_eq (ms : Modules) (l : List GdbFrame) :
    gdbFrames ms l = (calls l).map fun f => resolveFrame ms f.address false := by
  induction l with
  | nil => rfl
  | cons f l ih =>
    rw [gdbFrames]
    cases h : f.signalHandlerCalled <;> simp [calls, h, ih]

theorem skipCount_eq (n : Nat) (l : List GdbFrame) : skipCount n l = (calls l).length - n := by
  induction l generalizing n with
  | nil => simp [skipCount, calls]
  | cons f l ih =>
    rw [skipCount.eq_def]
    dsimp only
    cases h : f.signalHandlerCalled with
    | true =>
      rw [if_pos rfl, ih]
      simp [calls, h]
    | false =>
      rw [if_neg (by simp)]
      have : (calls (f :: l)).length = (calls l).length + 1 := by simp [calls, h]
      cases n with
      | zero => simp only [ih]; omega
      | succ n => simp only [ih]; omega

/-- C95: the threads of the gdb stack trace become the threads of the core stack trace, in the same order; the crash thread is
the one found in the gdb stack trace. If no mark of a signal handler is among the frames that are left out, every thread has
frames for the addresses of the oldest 256 frames of the gdb thread; the marks do not count. -/
theorem C95_frames_partial (c : Core) (s : GdbTrace) (executable : Option Str) :
    (fromGdb c s executable).crashThread = Crash.findCrashThread s ∧
    (fromGdb c s executable).executable = executable ∧
    (fromGdb c s executable).signal = toSignal (signalNumber c.prstatusSize c.notes) ∧
    List.Forall₂ (fun (t : GdbThread) (x : CoreThread) =>
      (∀ f ∈ t.frames.take ((calls t.frames).length - 256), f.signalHandlerCalled = false) →
        x.frames = (lastN 256 (calls t.frames)).map fun f => resolveFrame c.modules f.address false)
      s.threads (fromGdb c s executable).threads := by
  refine ⟨rfl, rfl, rfl, ?_⟩
  change List.Forall₂ _ s.threads (s.threads.map (gdbThread c.modules))
  rw [List.forall₂_map_right_iff]
  apply List.forall₂_same.2
  intro t _ h
  change gdbFrames c.modules (t.frames.drop (skipCount frameLimit t.frames)) = _
  rw [gdbFrames_eq, skipCount_eq, lastN_eq]
  unfold frameLimit
  refine congrArg (List.map _) ?_
  generalize hk : (calls t.frames).length - 256 = k at h
  have hle : k ≤ t.frames.length := by
    have : (calls t.frames).length ≤ t.frames.length := List.length_filter_le _ _
    omega
  have htake : calls (t.frames.take k) = t.frames.take k := by
    unfold calls
    rw [List.filter_eq_self]
    intro f hf
    simpa using h f hf
  have hsplit : calls t.frames = calls (t.frames.take k) ++ calls (t.frames.drop k) := by
    unfold calls
    rw [← List.filter_append, List.take_append_drop]
  rw [hsplit, htake]
  exact (List.drop_left' (by rw [List.length_take]; omega)).symm

/-- C95 does not hold otherwise: for each mark of a signal handler that is among the frames left out, the thread has one frame
more than 256. -/
theorem C95_not_limit (c : Core) (t : GdbThread) (h : 256 ≤ (calls t.frames).length) :
    (gdbThread c.modules t).frames.length =
      256 + ((t.frames.take ((calls t.frames).length - 256)).filter fun f => f.signalHandlerCalled = true).length := by
  change (gdbFrames c.modules (t.frames.drop (skipCount frameLimit t.frames))).length = _
  rw [gdbFrames_eq, skipCount_eq, List.length_map]
  unfold frameLimit
  generalize hk : (calls t.frames).length - 256 = k
  have hle : (calls t.frames).length ≤ t.frames.length := List.length_filter_le _ _
  have hsplit : (calls t.frames).length = (calls (t.frames.take k)).length + (calls (t.frames.drop k)).length := by
    unfold calls
    rw [← List.length_append, ← List.filter_append, List.take_append_drop]
  have hparts : ∀ l : List GdbFrame, l.length = (calls l).length + (l.filter fun f => f.signalHandlerCalled = true).length := by
    intro l
    induction l with
    | nil => rfl
    | cons f l ih =>
      unfold calls at ih ⊢
      cases hf : f.signalHandlerCalled <;> simp [hf] at ih ⊢ <;> omega
  have := hparts (t.frames.take k)
  rw [List.length_take] at this
  omega

/-- Such threads exist. -/
example : 256 ≤ (calls ({ signalHandlerCalled := true } :: List.replicate 257 ({} : GdbFrame))).length ∧
    (gdbThread {} { frames := { signalHandlerCalled := true } :: List.replicate 257 {} }).frames.length = 257 := by decide +kernel

example : (gdbThread sampleModules { frames := [{ address := 0x1010 }, { signalHandlerCalled := true }, { address := 0x1110 }] }).frames =
    [⟨0x1010, some c!"ab01", 0x10, some c!"f()", some c!"/usr/lib/libx.so", none, true⟩,
     ⟨0x1110, some c!"ab01", 0x110, some c!"main", some c!"/usr/lib/libx.so", none, true⟩] := by decide +kernel

/-! ## C97: libunwind -/

/-- The frame of a step: the name known to libunwind is used if libdwfl knows none. -/
def stepFrame (ms : Modules) (s : Step) : CoreFrame :=
  { resolveFrame ms s.ip false with functionName := (resolveFrame ms s.ip false).functionName.or s.procName }

/-- The frames of steps: up to the address 0, which is left out, or up to `__libc_start_main`, which is not, and at most 999. -/
def IsSteps (ms : Modules) (l : List Step) (fs : List CoreFrame) : Prop :=
  ∃ steps rest, l = steps ++ rest ∧ fs = steps.map (stepFrame ms) ∧ (∀ s ∈ steps, s.ip ≠ 0) ∧ steps.length ≤ 999 ∧
    (∀ f ∈ fs.dropLast, notStart f) ∧
    (steps.length = 999 ∨ rest = [] ∨ (∃ s r, rest = s :: r ∧ s.ip = 0) ∨ ∃ f, fs.getLast? = some f ∧ ¬ notStart f)

theorem unwindSteps_spec (ms : Modules) (n : Nat) (l : List Step) :
    ∃ steps rest, l = steps ++ rest ∧ unwindSteps ms n l = steps.map (stepFrame ms) ∧ (∀ s ∈ steps, s.ip ≠ 0) ∧ steps.length ≤ n ∧
    (∀ f ∈ (unwindSteps ms n l).dropLast, notStart f) ∧
    (steps.length = n ∨ rest = [] ∨ (∃ s r, rest = s :: r ∧ s.ip = 0) ∨
      ∃ f, (unwindSteps ms n l).getLast? = some f ∧ ¬ notStart f) := by
  induction n generalizing l with
  | zero => exact ⟨[], l, rfl, by simp [unwindSteps], by simp, by simp, by simp [unwindSteps], .inl rfl⟩
  | succ n ih =>
    cases l with
    | nil => exact ⟨[], [], rfl, by simp [unwindSteps], by simp, by simp, by simp [unwindSteps], .inr (.inl rfl)⟩
    | cons s l =>
      rw [unwindSteps]
      by_cases h0 : s.ip = 0
      · rw [if_pos h0]
        exact ⟨[], s :: l, rfl, rfl, by simp, by simp, by simp, .inr (.inr (.inl ⟨s, l, rfl, h0⟩))⟩
      · rw [if_neg h0]
        have hframe : (if (resolveFrame ms s.ip false).functionName = none then
            { resolveFrame ms s.ip false with functionName := s.procName } else resolveFrame ms s.ip false) = stepFrame ms s := by
          unfold stepFrame
          cases hf : (resolveFrame ms s.ip false).functionName with
          | none => rw [if_pos rfl]; rfl
          | some n =>
            rw [if_neg (by simp)]
            generalize resolveFrame ms s.ip false = r at hf
            cases r
            simp at hf
            simp [hf]
        dsimp only
        rw [hframe]
        by_cases hm : (stepFrame ms s).functionName = some c!"__libc_start_main"
        · rw [if_pos hm]
          exact ⟨[s], l, rfl, rfl, by simpa using h0, by simp, by simp, .inr (.inr (.inr ⟨_, rfl, fun h => h hm⟩))⟩
        · rw [if_neg hm]
          obtain ⟨steps, rest, h1, h2, h3, h4, h5, h6⟩ := ih l
          refine ⟨s :: steps, rest, by rw [h1]; rfl, by rw [h2]; rfl, by simpa using ⟨h0, h3⟩, by simpa using h4, ?_, ?_⟩
          · intro f hf
            cases hu : unwindSteps ms n l with
            | nil => rw [hu] at hf; simp at hf
            | cons x y =>
              rw [hu, List.dropLast_cons_cons] at hf
              rcases List.mem_cons.1 hf with rfl | hf
              · exact hm
              · exact h5 f (by rw [hu]; exact hf)
          · rcases h6 with h6 | h6 | h6 | ⟨f, h6, h7⟩
            · exact .inl (by simp [h6])
            · exact .inr (.inl h6)
            · exact .inr (.inr (.inl h6))
            · refine .inr (.inr (.inr ⟨f, ?_, h7⟩))
              cases hu : unwindSteps ms n l with
              | nil => rw [hu] at h6; simp at h6
              | cons x y => rw [hu] at h6; rw [List.getLast?_cons_cons]; exact h6

/-- The first signal that is not 0. -/
def IsFirstSignal (l : List UThread) (s : Int) : Prop :=
  (s = 0 ∧ ∀ t ∈ l, t.signal = 0) ∨ ∃ b t a, l = b ++ t :: a ∧ t.signal = s ∧ s ≠ 0 ∧ ∀ x ∈ b, x.signal = 0

theorem firstSignal_spec (l : List UThread) : IsFirstSignal l (firstSignal l) := by
  induction l with
  | nil => exact .inl ⟨rfl, by simp⟩
  | cons t l ih =>
    rw [firstSignal]
    by_cases h : t.signal = 0
    · rw [if_neg (fun h' => h' h)]
      rcases ih with ⟨h1, h2⟩ | ⟨b, x, a, h1, h2, h3, h4⟩
      · exact .inl ⟨h1, by simpa using ⟨h, h2⟩⟩
      · exact .inr ⟨t :: b, x, a, by rw [h1]; rfl, h2, h3, by simpa using ⟨h, h4⟩⟩
    · rw [if_pos h]
      exact .inr ⟨[], t, l, rfl, rfl, h, by simp⟩

/-- C97: if the unwinding of every thread can be started, the stack trace has the threads in their order, with the frames up to
`__libc_start_main`, at most 999, and the first signal that is not 0; the first thread is the crash thread. -/
theorem C97_trace_partial (ms : Modules) (l : List UThread) (executable : Option Str) (h : ∀ t ∈ l, t.starts = true) :
    ∃ s m, parseLibunwind ms l executable = .ok (some s, m) ∧
      List.Forall₂ (fun (t : UThread) (x : CoreThread) => IsSteps ms t.steps x.frames) l s.threads ∧
      s.crashThread = (if s.threads = [] then none else some 0) ∧ s.executable = executable ∧
      ∃ n, IsFirstSignal l n ∧ s.signal = toSignal n := by
  have key : ∀ l : List UThread, (∀ t ∈ l, t.starts = true) → ∃ cs, unwindUThreads ms l = some cs ∧
      List.Forall₂ (fun (t : UThread) (x : CoreThread) => IsSteps ms t.steps x.frames) l cs := by
    intro l
    induction l with
    | nil => exact fun _ => ⟨[], rfl, .nil⟩
    | cons t l ih =>
      intro h
      obtain ⟨cs, h1, h2⟩ := ih fun t ht => h t (by simp [ht])
      refine ⟨{ id := 0, frames := unwindSteps ms 999 t.steps } :: cs, ?_, .cons ?_ h2⟩
      · rw [unwindUThreads, if_neg (by simp [h t (by simp)]), h1]
        rfl
      · obtain ⟨steps, rest, e1, e2, e3, e4, e5, e6⟩ := unwindSteps_spec ms 999 t.steps
        exact ⟨steps, rest, e1, e2, e3, e4, e5, e6⟩
  obtain ⟨cs, h1, h2⟩ := key l h
  unfold parseLibunwind
  rw [h1]
  exact ⟨_, _, rfl, h2, rfl, rfl, _, firstSignal_spec l, rfl⟩

/-- C97 does not hold if the unwinding of some thread cannot be started: the program then writes to a NULL pointer. -/
theorem C97_not_safe (ms : Modules) (l : List UThread) (executable : Option Str) (h : ∃ t ∈ l, t.starts = false) :
    parseLibunwind ms l executable = .ub := by
  have key : ∀ l : List UThread, (∃ t ∈ l, t.starts = false) → unwindUThreads ms l = none := by
    intro l
    induction l with
    | nil => simp
    | cons t l ih =>
      intro h
      rw [unwindUThreads]
      by_cases ht : t.starts = false
      · rw [if_pos ht]
      · rw [if_neg ht, ih]
        · rfl
        · obtain ⟨x, hx, hs⟩ := h
          rcases List.mem_cons.1 hx with rfl | hx
          · exact absurd hs ht
          · exact ⟨x, hx, hs⟩
  unfold parseLibunwind
  rw [key l h]

/-- C97: a thread without frames is not a failure, but leaves an error message. -/
theorem C97_not_only_failure : ∃ s, parseLibunwind {} [{ steps := [⟨0, none⟩] }] none = .ok (some s, true) :=
  ⟨_, rfl⟩

example : parseLibunwind sampleModules [{ steps := [⟨0x1010, none⟩, ⟨0x1250, none⟩, ⟨0x1010, none⟩], signal := 6 }] none = .ok (some
    { signal := 6, crashThread := some 0
      threads := [⟨0, [⟨0x1010, some c!"ab01", 0x10, some c!"f()", some c!"/usr/lib/libx.so", none, true⟩,
        ⟨0x1250, some c!"ab01", 0x250, some c!"__libc_start_main", some c!"/usr/lib/libx.so", none, true⟩]⟩] }, false) := by
  decide +kernel

end Satyr.Unwind
