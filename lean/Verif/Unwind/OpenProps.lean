import Verif.Unwind.OpenModel
import Verif.Unwind.Props
import Mathlib.Tactic.Tauto
/-!
# C124: opening a core dump and stopping a process leave nothing behind
-/
namespace Satyr.Unwind
open Satyr.CStr Satyr.Normalize Satyr.Frames

/-! ## Specification -/

/-- The segments that a core dump shows: the start and the file name of each module whose ELF file is found and that has a file
name, in order. -/
def segmentsOf (l : List Loaded) : List (Nat × Str) := l.filterMap fun m => if m.elf then m.file.map fun f => (m.start, f) else none

/-- The steps of opening the core dump `file`, in order: what has to succeed, and what is said if it does not. -/
def openSteps (e : OpenEnv) (file : Str) : List (Prop × Str) :=
  [(e.elfVersion = true, c!"elf_version failed for '" ++ file ++ c!"': " ++ e.elfError),
   (e.fd ≠ none, c!"Unable to open '" ++ file ++ c!"': " ++ e.sysError),
   (e.elfBegin = true, c!"elf_begin failed for '" ++ file ++ c!"': " ++ e.elfError),
   (e.isCore = true, c!"File '" ++ file ++ c!"' is not a coredump"),
   (e.report = true, c!"dwfl_core_file_report failed: " ++ e.dwflError),
   (e.reportEnd = true, c!"dwfl_report_end failed: " ++ e.dwflError),
   (e.getModules = true, c!"dwfl_getmodules failed: " ++ e.dwflError),
   (segmentsOf e.modules ≠ [], c!"No segments found in coredump '" ++ file ++ c!"'")]

/-- The steps after that: libdwfl attaches, every thread has a known stack (C93), and no thread is missing. -/
def threadSteps (e : OpenEnv) (c : Core) : List (Prop × Str) :=
  [(c.attaches = true, c!"dwfl_core_file_attach failed: " ++ e.dwflError),
   (∃ ts : List CoreThread, List.Forall₂ (IsThread c.modules) c.threads ts, c!"dwfl_frame_pc failed: " ++ e.dwflError),
   (c.ending = .finished, c!"dwfl_getthreads failed: " ++ e.dwflError)]

/-- All steps succeed. -/
def AllDone (l : List (Prop × Str)) : Prop := ∀ s ∈ l, s.1

/-- A step fails, all steps before it succeed, and `text` is what is said. -/
def FailsWith (l : List (Prop × Str)) (text : Str) : Prop :=
  ∃ before step after, l = before ++ (step, text) :: after ∧ AllDone before ∧ ¬step

/-- Nothing of what will be acquired is held: a library does not hand out the same thing twice. -/
structure Fresh (e : OpenEnv) (w : World) : Prop where
  handle : w.held .handle = false
  dwfl : w.held .dwfl = false
  elf : ∀ n, e.fd = some n → w.held (.elf n) = false
  fd : ∀ n, e.fd = some n → w.held (.fd n) = false
  segment : ∀ i, w.held (.segment i) = false
  name : ∀ i, w.held (.name i) = false

/-- Nothing is left of the modules if `dwfl_getmodules` fails. -/
def FailsEarly (e : OpenEnv) : Prop := e.getModules = false → segmentsOf e.modules = []

/-! ## Steps -/

theorem allDone_cons {p : Prop} {t : Str} {l : List (Prop × Str)} : AllDone ((p, t) :: l) ↔ p ∧ AllDone l := by
  simp [AllDone]

theorem allDone_append {l l' : List (Prop × Str)} : AllDone (l ++ l') ↔ AllDone l ∧ AllDone l' := by
  unfold AllDone
  exact List.forall_mem_append

theorem allDone_nil : AllDone [] := by simp [AllDone]

theorem failsWith_nil {t : Str} : ¬FailsWith [] t := by
  rintro ⟨b, p, a, h, -⟩
  cases b <;> simp at h

theorem failsWith_cons {p : Prop} {t u : Str} {l : List (Prop × Str)} :
    FailsWith ((p, t) :: l) u ↔ (¬p ∧ u = t) ∨ (p ∧ FailsWith l u) := by
  constructor
  · rintro ⟨before, q, after, h, hb, hq⟩
    cases before with
    | nil =>
      rw [List.nil_append, List.cons.injEq, Prod.mk.injEq] at h
      obtain ⟨⟨rfl, rfl⟩, -⟩ := h
      exact .inl ⟨hq, rfl⟩
    | cons x before =>
      rw [List.cons_append, List.cons.injEq] at h
      obtain ⟨rfl, rfl⟩ := h
      obtain ⟨h1, h2⟩ := allDone_cons.1 hb
      exact .inr ⟨h1, before, q, after, rfl, h2, hq⟩
  · rintro (⟨hp, rfl⟩ | ⟨hp, before, q, after, rfl, h, hq⟩)
    · exact ⟨[], p, l, rfl, allDone_nil, hp⟩
    · exact ⟨(p, t) :: before, q, after, rfl, allDone_cons.2 ⟨hp, h⟩, hq⟩

theorem failsWith_append {l l' : List (Prop × Str)} {u : Str} :
    FailsWith (l ++ l') u ↔ FailsWith l u ∨ (AllDone l ∧ FailsWith l' u) := by
  induction l with
  | nil => simp [failsWith_nil, allDone_nil]
  | cons s l ih =>
    obtain ⟨p, t⟩ := s
    rw [List.cons_append, failsWith_cons, failsWith_cons, ih, allDone_cons]
    tauto

/-- Either all steps succeed or one is the first to fail. -/
theorem done_or_fails (l : List (Prop × Str)) : AllDone l ∨ ∃ t, FailsWith l t := by
  induction l with
  | nil => exact .inl allDone_nil
  | cons s l ih =>
    obtain ⟨p, t⟩ := s
    by_cases hp : p
    · rcases ih with h | ⟨u, h⟩
      · exact .inl (allDone_cons.2 ⟨hp, h⟩)
      · exact .inr ⟨u, failsWith_cons.2 (.inr ⟨hp, h⟩)⟩
    · exact .inr ⟨t, failsWith_cons.2 (.inl ⟨hp, rfl⟩)⟩

theorem not_both {l : List (Prop × Str)} {t : Str} (h : AllDone l) : ¬FailsWith l t := by
  rintro ⟨b, p, a, rfl, -, hp⟩
  exact hp (h (p, t) (by simp))

theorem fails_unique {l : List (Prop × Str)} {t u : Str} (h : FailsWith l t) (h' : FailsWith l u) : t = u := by
  induction l with
  | nil => exact absurd h failsWith_nil
  | cons s l ih =>
    obtain ⟨b, v⟩ := s
    rw [failsWith_cons] at h h'
    rcases h with ⟨hn, rfl⟩ | ⟨hp, h⟩
    · rcases h' with ⟨-, rfl⟩ | ⟨h, -⟩
      · rfl
      · exact absurd h hn
    · rcases h' with ⟨h', -⟩ | ⟨-, h'⟩
      · exact absurd hp h'
      · exact ih h h'

/-! ## Resources -/

theorem release_ok {r : Res} {w : World} (h : w.held r = true) (hu : ∀ u, usedBy r = some u → w.held u = false) :
    w.release r = .ok { w with held := fun x => w.held x && decide (x ≠ r) } := by
  unfold World.release
  rw [if_neg (by rw [h]; decide)]
  rw [if_neg]
  cases hr : usedBy r with
  | none => simp
  | some u => simp [hu u hr]

/-- The entries of the segments `k` up to `n`. -/
def isSeg (k n : Nat) : Res → Bool
  | .segment i => k ≤ i && i < n
  | .name i => k ≤ i && i < n
  | _ => false

theorem touch_eq (l : List Loaded) (k : Nat) (w : World) :
    touchModules l k w = (segmentsOf l, { w with held := fun x => w.held x || isSeg k (k + (segmentsOf l).length) x }) := by
  induction l generalizing k w with
  | nil =>
    simp only [touchModules, segmentsOf, List.filterMap_nil, List.length_nil, Nat.add_zero]
    congr 1
    obtain ⟨held, msg⟩ := w
    congr 1
    funext x
    cases x <;> simp [isSeg]
  | cons m l ih =>
    unfold touchModules
    by_cases h1 : m.elf = false
    · rw [if_pos h1, ih]
      have : segmentsOf (m :: l) = segmentsOf l := by simp [segmentsOf, h1]
      rw [this]
    · rw [if_neg h1]
      have h1' : m.elf = true := by simpa using h1
      cases h2 : m.file with
      | none =>
        dsimp only
        rw [ih]
        have : segmentsOf (m :: l) = segmentsOf l := by simp [segmentsOf, h1', h2]
        rw [this]
      | some f =>
        dsimp only
        rw [ih]
        have : segmentsOf (m :: l) = (m.start, f) :: segmentsOf l := by simp [segmentsOf, h1', h2]
        rw [this]
        dsimp only [World.acquire]
        congr 2
        funext x
        rw [List.length_cons]
        cases x <;> simp [isSeg]
        all_goals
          rename_i i
          by_cases h : i = k
          · subst h; simp
          · simp only [h, decide_false, Bool.or_false]
            congr 1
            apply Bool.eq_iff_iff.2
            simp only [Bool.and_eq_true, decide_eq_true_eq]
            omega

theorem freeSegments_ok (l : List (Nat × Str)) (i : Nat) (w : World)
    (h : ∀ x, isSeg i (i + l.length) x = true → w.held x = true) :
    freeSegments l i w = .ok { w with held := fun x => w.held x && !isSeg i (i + l.length) x } := by
  induction l generalizing i w with
  | nil =>
    unfold freeSegments
    obtain ⟨held, msg⟩ := w
    congr 2
    funext x
    cases x <;> simp [isSeg] <;> omega
  | cons s l ih =>
    unfold freeSegments
    rw [List.length_cons] at h ⊢
    rw [release_ok (h _ (by simp [isSeg])) (by simp [usedBy]), Out.bind_ok]
    rw [release_ok (by simp [h (.segment i) (by simp [isSeg])]) (by simp [usedBy]), Out.bind_ok]
    rw [ih]
    · congr 2
      funext x
      have key : ∀ j : Nat, ((¬j = i) && !(decide (i + 1 ≤ j) && decide (j < i + 1 + l.length))) =
          !(decide (i ≤ j) && decide (j < i + (l.length + 1))) := by
        intro j
        apply Bool.eq_iff_iff.2
        simp
        omega
      cases x with
      | segment j =>
        have := key j
        simp only [isSeg]
        simp [Bool.and_assoc]
        simp at this
        rw [this]
      | name j =>
        have := key j
        simp [isSeg, Bool.and_assoc]
        simp at this
        rw [this]
      | _ => simp [isSeg]
    · intro x hx
      cases x <;> simp [isSeg] at hx ⊢
      all_goals
        rename_i j
        refine ⟨h _ (by simp [isSeg]; omega), by omega⟩

theorem setError_eq (wanted : Bool) (t : Str) (w : World) :
    w.setError wanted t = ⟨w.held, if wanted then some t else w.message⟩ := by
  unfold World.setError
  cases wanted <;> rfl

theorem back {f : Res → Bool} {r : Res} (h : f r = false) : (fun x => (f x || decide (x = r)) && decide (x ≠ r)) = f := by
  funext x
  by_cases hx : x = r
  · subst hx; simp [h]
  · simp [hx]

theorem release_back {f : Res → Bool} {r : Res} {m : Option Str} (h : f r = false) (hu : ∀ u, usedBy r = some u → f u = false) :
    (World.mk (fun x => f x || decide (x = r)) m).release r = .ok ⟨f, m⟩ := by
  rw [release_ok (by simp)]
  · rw [back h]
  · intro u hr
    have : u ≠ r := by rintro rfl; cases u <;> simp [usedBy] at hr
    simp [hu u hr, this]

theorem failFree_eq {f : Res → Bool} {m : Option Str} (h : f .handle = false) :
    failFree ⟨fun x => f x || decide (x = .handle), m⟩ = .ok (none, ⟨f, m⟩) := by
  unfold failFree
  rw [release_back h (by simp [usedBy]), Out.bind_ok]
  rfl

theorem failClose_eq {f : Res → Bool} {m : Option Str} {n : Nat} (h : f .handle = false) (h1 : f (.fd n) = false)
    (h2 : f (.elf n) = false) :
    failClose n ⟨fun x => (f x || decide (x = .handle)) || decide (x = .fd n), m⟩ = .ok (none, ⟨f, m⟩) := by
  unfold failClose
  rw [release_back (by simp [h1]) (by simp [usedBy, h2]), Out.bind_ok, failFree_eq h]

theorem failElf_eq {f : Res → Bool} {m : Option Str} {n : Nat} (h : f .handle = false) (h1 : f (.fd n) = false)
    (h2 : f (.elf n) = false) (h3 : f .dwfl = false) :
    failElf n ⟨fun x => ((f x || decide (x = .handle)) || decide (x = .fd n)) || decide (x = .elf n), m⟩ =
      .ok (none, ⟨f, m⟩) := by
  unfold failElf
  rw [release_back (by simp [h2]) (by simp [usedBy, h3]), Out.bind_ok, failClose_eq h h1 h2]

theorem failDwfl_eq {f : Res → Bool} {m : Option Str} {n : Nat} (h : f .handle = false) (h1 : f (.fd n) = false)
    (h2 : f (.elf n) = false) (h3 : f .dwfl = false) :
    failDwfl n ⟨fun x => (((f x || decide (x = .handle)) || decide (x = .fd n)) || decide (x = .elf n)) || decide (x = .dwfl), m⟩ =
      .ok (none, ⟨f, m⟩) := by
  unfold failDwfl
  rw [release_back (by simp [h3]) (by simp [usedBy]), Out.bind_ok, failElf_eq h h1 h2 h3]

/-- What is held while the core dump is open. -/
def opened (f : Res → Bool) (n k : Nat) : Res → Bool := fun x =>
  ((((f x || decide (x = .handle)) || decide (x = .fd n)) || decide (x = .elf n)) || decide (x = .dwfl)) || isSeg 0 k x

theorem isSeg_zero (x : Res) : isSeg 0 0 x = false := by cases x <;> simp [isSeg]

theorem open_fails {e : OpenEnv} {wanted : Bool} {file : Str} {w : World} {t : Str} (hf : Fresh e w) (he : FailsEarly e)
    (hm : wanted = true → w.message = none) (h : FailsWith (openSteps e file) t) :
    openCoredump e wanted file w = .ok (none, ⟨w.held, if wanted then some t else w.message⟩) := by
  obtain ⟨f, m⟩ := w
  unfold openSteps at h
  unfold openCoredump
  simp only [World.acquire, setError_eq]
  rw [failsWith_cons] at h
  rcases h with ⟨h, rfl⟩ | ⟨h, h'⟩
  · rw [if_pos (by simpa using h), failFree_eq hf.handle]; rfl
  rw [if_neg (by simp [h])]
  rw [failsWith_cons] at h'
  rcases h' with ⟨h, rfl⟩ | ⟨h, h'⟩
  · have hn : e.fd = none := by simpa using h
    rw [hn]; dsimp only; rw [failFree_eq hf.handle]
  cases hn : e.fd with
  | none => exact absurd hn h
  | some n =>
    have g1 := hf.fd n hn
    have g2 := hf.elf n hn
    dsimp only at g1 g2 ⊢
    rw [failsWith_cons] at h'
    rcases h' with ⟨h, rfl⟩ | ⟨h, h'⟩
    · rw [if_pos (by simpa using h), failClose_eq hf.handle g1 g2]; rfl
    rw [if_neg (by simp [h])]
    rw [failsWith_cons] at h'
    rcases h' with ⟨h, rfl⟩ | ⟨h, h'⟩
    · rw [if_pos (by simpa using h), failElf_eq hf.handle g1 g2 hf.dwfl]
    rw [if_neg (by simp [h])]
    rw [failsWith_cons] at h'
    rcases h' with ⟨h, rfl⟩ | ⟨h, h'⟩
    · rw [if_pos (by simpa using h), failDwfl_eq hf.handle g1 g2 hf.dwfl]; rfl
    rw [if_neg (by simp [h])]
    rw [failsWith_cons] at h'
    rcases h' with ⟨h, rfl⟩ | ⟨h, h'⟩
    · rw [if_pos (by simpa using h), failDwfl_eq hf.handle g1 g2 hf.dwfl]; rfl
    rw [if_neg (by simp [h]), touch_eq]
    dsimp only
    rw [failsWith_cons] at h'
    rcases h' with ⟨h, rfl⟩ | ⟨h, h'⟩
    · rw [if_pos (by simpa using h), he (by simpa using h)]
      simp only [List.length_nil, Nat.add_zero, isSeg_zero, Bool.or_false]
      rw [failDwfl_eq hf.handle g1 g2 hf.dwfl]; rfl
    rw [if_neg (by simp [h])]
    rw [failsWith_cons] at h'
    rcases h' with ⟨h, rfl⟩ | ⟨h, h'⟩
    · have h : segmentsOf e.modules = [] := by simpa using h
      rw [if_pos h, h]
      simp only [List.length_nil, Nat.add_zero, isSeg_zero, Bool.or_false]
      cases wanted with
      | false => 
        rw [show (if m = none then World.mk _ (if false = true then _ else m) else World.mk _ m) = World.mk _ m by split <;> rfl,
          failDwfl_eq hf.handle g1 g2 hf.dwfl]
        rfl
      | true =>
        rw [if_pos (hm rfl), failDwfl_eq hf.handle g1 g2 hf.dwfl]
    · exact absurd h' failsWith_nil

theorem open_done {e : OpenEnv} {wanted : Bool} {file : Str} {w : World} (h : AllDone (openSteps e file)) :
    ∃ n, e.fd = some n ∧ openCoredump e wanted file w = .ok (some ⟨n, segmentsOf e.modules⟩,
      ⟨opened w.held n (segmentsOf e.modules).length, w.message⟩) := by
  unfold openSteps at h
  simp only [allDone_cons] at h
  obtain ⟨h1, h2, h3, h4, h5, h6, h7, h8, -⟩ := h
  cases hn : e.fd with
  | none => exact absurd hn h2
  | some n =>
    refine ⟨n, rfl, ?_⟩
    unfold openCoredump
    simp only [World.acquire, setError_eq, hn]
    rw [if_neg (by simp [h1]), if_neg (by simp [h3]), if_neg (by simp [h4]), if_neg (by simp [h5]), if_neg (by simp [h6]), touch_eq]
    dsimp only
    rw [if_neg (by simp [h7]), if_neg h8, Nat.zero_add]
    rfl

/-- What `core_handle_free` leaves. -/
theorem freeHandle_eq {e : OpenEnv} {w : World} {n : Nat} {l : List (Nat × Str)} {m : Option Str} (hf : Fresh e w)
    (hn : e.fd = some n) :
    freeHandle ⟨n, l⟩ ⟨opened w.held n l.length, m⟩ =
      .ok ⟨if n = 0 then fun x => w.held x || decide (x = .fd 0) else w.held, m⟩ := by
  obtain ⟨f, m'⟩ := w
  have g1 := hf.fd n hn
  have g2 := hf.elf n hn
  have g3 := hf.handle
  have g4 := hf.dwfl
  have g5 := hf.segment
  have g6 := hf.name
  dsimp only at g1 g2 g3 g4 g5 g6 ⊢
  unfold freeHandle
  rw [freeSegments_ok _ _ _ (by intro x hx; rw [Nat.zero_add] at hx; simp [opened, hx]), Out.bind_ok]
  dsimp only
  have e1 : (fun x => opened f n l.length x && !isSeg 0 (0 + l.length) x) =
      fun x => (((f x || decide (x = .handle)) || decide (x = .fd n)) || decide (x = .elf n)) || decide (x = .dwfl) := by
    funext x
    rw [Nat.zero_add]
    unfold opened
    cases x <;> simp [isSeg, g5, g6]
  rw [e1, release_back (by simp [g4]) (by simp [usedBy]), Out.bind_ok]
  rw [release_back (by simp [g2]) (by simp [usedBy, g4]), Out.bind_ok]
  by_cases h : n = 0
  · subst h
    rw [if_neg (by omega), if_pos rfl]
    show World.release _ _ = _
    have e2 : (fun x => (f x || decide (x = Res.handle)) || decide (x = Res.fd 0)) =
        fun x => (f x || decide (x = Res.fd 0)) || decide (x = Res.handle) := by
      funext x
      rw [Bool.or_assoc, Bool.or_assoc, Bool.or_comm (decide (x = Res.handle))]
    rw [e2, release_back (by simp [g3]) (by simp [usedBy])]
  · rw [if_pos (by omega), if_neg h, release_back (by simp [g1]) (by simp [usedBy, g2]), Out.bind_ok]
    rw [release_back (by simp [g3]) (by simp [usedBy])]

/-! ## C124: core dumps -/

theorem parse_fails {e : OpenEnv} {c : Core} {wanted : Bool} {file executable : Str} {w : World} {t : Str} (hf : Fresh e w)
    (he : FailsEarly e) (h : FailsWith (openSteps e file) t) :
    parseCoredumpIn e c wanted file executable w = .ok (none, ⟨w.held, if wanted then some t else w.message⟩) := by
  unfold parseCoredumpIn
  cases wanted with
  | false =>
    dsimp only
    rw [if_neg (by simp), open_fails hf he (by simp) h, Out.bind_ok]
    rfl
  | true =>
    dsimp only
    rw [if_pos rfl, open_fails (w := { w with message := none }) ⟨hf.1, hf.2, hf.3, hf.4, hf.5, hf.6⟩ he (by simp) h, Out.bind_ok]
    rfl

/-- What happens once the core dump is open. -/
theorem parse_opened {e : OpenEnv} {c : Core} {wanted : Bool} {file executable : Str} {w : World} {n : Nat} (hf : Fresh e w)
    (hn : e.fd = some n) (h : AllDone (openSteps e file)) :
    (∀ t, FailsWith (threadSteps e c) t → parseCoredumpIn e c wanted file executable w =
      .ok (none, ⟨if n = 0 then fun x => w.held x || decide (x = .fd 0) else w.held, if wanted then some t else w.message⟩)) ∧
    (AllDone (threadSteps e c) → ∃ tr, IsTrace { c with opens := true } executable tr ∧
      parseCoredumpIn e c wanted file executable w =
      .ok (some tr, ⟨if n = 0 then fun x => w.held x || decide (x = .fd 0) else w.held, if wanted then none else w.message⟩)) := by
  obtain ⟨n', hn', ho⟩ := open_done (e := e) (wanted := wanted) (w := if wanted then { w with message := none } else w) h
  rw [hn, Option.some.injEq] at hn'
  subst hn'
  have hw : (if wanted then { w with message := none } else w).held = w.held := by cases wanted <;> rfl
  have hw' : (if wanted then { w with message := none } else w).message = if wanted then none else w.message := by
    cases wanted <;> rfl
  rw [hw, hw'] at ho
  unfold parseCoredumpIn
  dsimp only
  rw [ho, Out.bind_ok]
  dsimp only
  simp only [setError_eq, freeHandle_eq hf hn, Out.bind_ok]
  constructor
  · intro t ht
    unfold threadSteps at ht
    rw [failsWith_cons, failsWith_cons, failsWith_cons] at ht
    rcases ht with ⟨h1, rfl⟩ | ⟨h1, ⟨h2, rfl⟩ | ⟨⟨ts, h2⟩, ⟨h3, rfl⟩ | ⟨-, h4⟩⟩⟩
    · rw [if_pos (by simpa using h1)]
      cases wanted <;> rfl
    · rw [if_neg (by simp [h1])]
      cases hu : unwindThreads c.modules c.threads with
      | none => cases wanted <;> rfl
      | some ts => exact absurd ⟨ts, (unwindThreads_iff _ _ _).1 hu⟩ h2
    · rw [if_neg (by simp [h1]), (unwindThreads_iff _ _ _).2 h2]
      dsimp only
      rw [if_pos (by cases hc : c.ending with | broken => rfl | finished => exact absurd hc h3)]
      cases wanted <;> rfl
    · exact absurd h4 failsWith_nil
  · intro hd
    unfold threadSteps at hd
    simp only [allDone_cons] at hd
    obtain ⟨h1, ⟨ts, h2⟩, h3, -⟩ := hd
    rw [if_neg (by simp [h1]), (unwindThreads_iff _ _ _).2 h2]
    dsimp only
    rw [if_neg (by simp [h3])]
    exact ⟨_, ⟨rfl, h1, h3, h2, rfl, rfl, rfl, rfl⟩, rfl⟩

/-- C124: whatever the libraries do, reading a core dump releases everything that it acquired, in an order in which nothing that is
still used is released, and nothing twice. If a step fails there is no stack trace, and the error message is the one of the first
step that fails; otherwise there is the stack trace of C93 and no error message. Not so if the file is opened as descriptor 0, or
if `dwfl_getmodules` fails after a module. -/
theorem C124_parse_partial (e : OpenEnv) (c : Core) (wanted : Bool) (file executable : Str) (w : World) (hf : Fresh e w)
    (he : FailsEarly e) (h0 : e.fd ≠ some 0) :
    (∀ t, FailsWith (openSteps e file ++ threadSteps e c) t → parseCoredumpIn e c wanted file executable w =
      .ok (none, ⟨w.held, if wanted then some t else w.message⟩)) ∧
    (AllDone (openSteps e file ++ threadSteps e c) → ∃ tr, IsTrace { c with opens := true } executable tr ∧
      parseCoredumpIn e c wanted file executable w = .ok (some tr, ⟨w.held, if wanted then none else w.message⟩)) := by
  constructor
  · intro t ht
    rcases failsWith_append.1 ht with ht | ⟨hd, ht⟩
    · exact parse_fails hf he ht
    · obtain ⟨n, hn, -⟩ := open_done (wanted := wanted) (w := w) hd
      have hne : n ≠ 0 := by rintro rfl; exact h0 hn
      rw [(parse_opened hf hn hd).1 t ht, if_neg hne]
  · intro hd
    obtain ⟨hd, hd'⟩ := allDone_append.1 hd
    obtain ⟨n, hn, -⟩ := open_done (wanted := wanted) (w := w) hd
    have hne : n ≠ 0 := by rintro rfl; exact h0 hn
    have := (parse_opened (wanted := wanted) (executable := executable) hf hn hd).2 hd'
    rw [if_neg hne] at this
    exact this

/-- One of the two cases of `C124_parse_partial` applies, and only one message does. -/
theorem C124_cases (e : OpenEnv) (c : Core) (file : Str) :
    (AllDone (openSteps e file ++ threadSteps e c) ∧ ∀ t, ¬FailsWith (openSteps e file ++ threadSteps e c) t) ∨
    (¬AllDone (openSteps e file ++ threadSteps e c) ∧ ∃ t, FailsWith (openSteps e file ++ threadSteps e c) t ∧
      ∀ u, FailsWith (openSteps e file ++ threadSteps e c) u → u = t) := by
  rcases done_or_fails (openSteps e file ++ threadSteps e c) with h | ⟨t, h⟩
  · exact .inl ⟨h, fun t => not_both h⟩
  · exact .inr ⟨fun hd => not_both hd h, t, h, fun u hu => fails_unique hu h⟩

/-- C124 is false if the core dump is opened as descriptor 0, which is the case if standard input is closed: the file stays open. -/
theorem C124_not_closed (e : OpenEnv) (c : Core) (wanted : Bool) (file executable : Str) (w : World) (hf : Fresh e w)
    (h0 : e.fd = some 0) (hd : AllDone (openSteps e file)) :
    ∃ r m, parseCoredumpIn e c wanted file executable w = .ok (r, ⟨fun x => w.held x || decide (x = .fd 0), m⟩) ∧
      w.held (.fd 0) = false := by
  rcases done_or_fails (threadSteps e c) with h | ⟨t, h⟩
  · obtain ⟨tr, -, h⟩ := (parse_opened (wanted := wanted) (executable := executable) hf h0 hd).2 h
    exact ⟨_, _, h, hf.fd 0 h0⟩
  · exact ⟨_, _, (parse_opened (wanted := wanted) (executable := executable) hf h0 hd).1 t h, hf.fd 0 h0⟩

/-- C124 is false if `dwfl_getmodules` fails after a module: the entries of the segments stay. -/
theorem C124_not_freed (e : OpenEnv) (c : Core) (wanted : Bool) (file executable : Str) (w : World) (hf : Fresh e w)
    (hs : segmentsOf e.modules ≠ []) (hg : e.getModules = false) (hd : AllDone ((openSteps e file).take 6)) :
    ∃ m w', parseCoredumpIn e c wanted file executable w = .ok (none, ⟨w', m⟩) ∧ w' (.segment 0) = true ∧
      w.held (.segment 0) = false := by
  unfold openSteps at hd
  simp only [List.take_succ_cons, List.take_zero, allDone_cons] at hd
  obtain ⟨h1, h2, h3, h4, h5, h6, -⟩ := hd
  cases hn : e.fd with
  | none => exact absurd hn h2
  | some n =>
    have g1 := hf.fd n hn
    have g2 := hf.elf n hn
    have g3 := hf.handle
    have g4 := hf.dwfl
    unfold parseCoredumpIn openCoredump
    simp only [World.acquire, setError_eq, hn]
    rw [if_neg (by simp [h1]), if_neg (by simp [h3]), if_neg (by simp [h4]), if_neg (by simp [h5]), if_neg (by simp [h6]), touch_eq]
    dsimp only
    rw [if_pos hg]
    have hw : (if wanted then { w with message := none } else w).held = w.held := by cases wanted <;> rfl
    rw [hw, Nat.zero_add]
    have hp : 0 < (segmentsOf e.modules).length := List.length_pos_iff.2 hs
    generalize (if wanted = true then some _ else _ : Option Str) = m
    generalize (segmentsOf e.modules).length = k at hp
    have e1 : (fun x => (((((w.held x || decide (x = Res.handle)) || decide (x = Res.fd n)) || decide (x = Res.elf n)) ||
          decide (x = Res.dwfl)) || isSeg 0 k x)) =
        fun x => ((((w.held x || isSeg 0 k x) || decide (x = Res.handle)) || decide (x = Res.fd n)) || decide (x = Res.elf n)) ||
          decide (x = Res.dwfl) := by
      funext x
      cases w.held x <;> cases isSeg 0 k x <;> simp
    rw [e1, failDwfl_eq (f := fun x => w.held x || isSeg 0 k x) (by simp [g3, isSeg]) (by simp [g1, isSeg]) (by simp [g2, isSeg])
      (by simp [g4, isSeg]), Out.bind_ok]
    exact ⟨m, _, rfl, by simp [isSeg, hp], hf.segment 0⟩

/-- Only standard input and output are open. -/
def emptyWorld : World := { held := fun r => r = .fd 0 || r = .fd 1 || r = .fd 2 }

def sampleEnv : OpenEnv := { modules := [{ start := 0x1000, file := some c!"/bin/x" }, { elf := false }, { file := none }] }

example : Fresh sampleEnv emptyWorld ∧ FailsEarly sampleEnv ∧ sampleEnv.fd ≠ some 0 ∧
    AllDone (openSteps sampleEnv c!"core" ++ threadSteps sampleEnv sampleCore) :=
  ⟨⟨by decide, by decide, (fun _ h => by cases h; decide), (fun _ h => by cases h; decide), fun _ => rfl, fun _ => rfl⟩,
    (fun h => by cases h), by decide, by
      simp only [openSteps, threadSteps, List.cons_append, List.nil_append, allDone_cons]
      refine ⟨rfl, by decide, rfl, rfl, rfl, rfl, rfl, by decide, rfl, ?_, rfl, allDone_nil⟩
      cases h : unwindThreads sampleCore.modules sampleCore.threads with
      | some ts => exact ⟨ts, (unwindThreads_iff _ _ _).1 h⟩
      | none => exact absurd h (by decide +kernel)⟩

example : FailsWith (openSteps { sampleEnv with isCore := false } c!"x") c!"File 'x' is not a coredump" :=
  ⟨(openSteps { sampleEnv with isCore := false } c!"x").take 3, _, _, rfl, by
    simp only [openSteps, List.take_succ_cons, List.take_zero, allDone_cons]
    exact ⟨rfl, by decide, rfl, allDone_nil⟩, by decide⟩

/-- Standard input is closed. -/
example : AllDone (openSteps { sampleEnv with fd := some 0 } c!"core") ∧
    Fresh { sampleEnv with fd := some 0 } { held := fun r => r = .fd 1 || r = .fd 2 } :=
  ⟨by
      simp only [openSteps, allDone_cons]
      exact ⟨rfl, by decide, rfl, rfl, rfl, rfl, rfl, by decide, allDone_nil⟩,
    ⟨by decide, by decide, (fun _ h => by cases h; decide), (fun _ h => by cases h; decide), fun _ => rfl, fun _ => rfl⟩⟩

/-! ## C124: stopped processes -/

/-- The steps before the process is traced, until standard input is closed, and after that. -/
def seizeSteps (e : HookEnv) (tid : Int) : List (Prop × Str) :=
  [(e.report = true, c!"dwfl_linux_proc_report failed: " ++ e.dwflError),
   (e.reportEnd = true, c!"dwfl_report_end failed: " ++ e.dwflError),
   (e.seize = true, c!"PTRACE_SEIZE (tid " ++ natDec (unsigned tid) ++ c!") failed: " ++ e.sysError)]

def closeSteps (e : HookEnv) : List (Prop × Str) := [(e.close = true, c!"Failed to close stdin: " ++ e.sysError)]

def waitSteps (e : HookEnv) (tid : Int) : List (Prop × Str) :=
  [(e.wait ≠ none, c!"waitpid failed: " ++ e.sysError),
   (e.wait = some tid, c!"waitpid returned " ++ natDec (unsigned (e.wait.getD 0)) ++ c!" but " ++ natDec (unsigned tid) ++
      c!" was expected"),
   (e.status % 256 = 0x7f, c!"waitpid returned 0x" ++ natHex (unsigned e.status) ++ c!" but WIFSTOPPED was expected"),
   (e.status / 256 = 0x605, c!"waitpid returned 0x" ++ natHex (unsigned e.status) ++
      c!" but (status >> 8) == (SIGTRAP | (PTRACE_EVENT_EXIT << 8)) was expected")]

/-- The process is stopped by the event that it is about to exit. -/
theorem C124_status (e : HookEnv) (tid : Int) :
    AllDone (waitSteps e tid) ↔ e.wait = some tid ∧ e.status = 0x6057f := by
  simp only [waitSteps, allDone_cons, allDone_nil, and_true]
  constructor
  · rintro ⟨-, h1, h2, h3⟩
    exact ⟨h1, by omega⟩
  · rintro ⟨h1, h2⟩
    rw [h1, h2]
    exact ⟨by simp, rfl, by decide, by decide⟩

theorem failHook_eq {f : Res → Bool} {m : Option Str} (h : f .handle = false) (hd : f .dwfl = false) :
    failHook ⟨fun x => (f x || decide (x = .handle)) || decide (x = .dwfl), m⟩ = .ok (false, ⟨f, m⟩) := by
  unfold failHook freeState
  rw [release_back (by simp [hd]) (by simp [usedBy]), Out.bind_ok, release_back h (by simp [usedBy]), Out.bind_ok]
  rfl

/-- What is held once the process is traced, and once standard input is closed. -/
def traced (f : Res → Bool) (tid : Int) : Res → Bool := fun x => f x || decide (x = .tracee tid)

def noStdin (f : Res → Bool) : Res → Bool := fun x => f x && decide (x ≠ .fd 0)

theorem swap_traced (f : Res → Bool) (tid : Int) :
    (fun x => ((f x || decide (x = Res.handle)) || decide (x = Res.dwfl)) || decide (x = Res.tracee tid)) =
      fun x => (traced f tid x || decide (x = .handle)) || decide (x = .dwfl) := by
  funext x
  unfold traced
  cases f x <;> cases decide (x = Res.handle) <;> cases decide (x = Res.dwfl) <;> cases decide (x = Res.tracee tid) <;> rfl

theorem swap_stdin (f : Res → Bool) :
    (fun x => ((f x || decide (x = Res.handle)) || decide (x = Res.dwfl)) && decide (x ≠ Res.fd 0)) =
      fun x => (noStdin f x || decide (x = .handle)) || decide (x = .dwfl) := by
  funext x
  unfold noStdin
  by_cases h : x = Res.fd 0
  · subst h; simp
  · simp [h]

/-- C124: stopping a process succeeds exactly if all steps do, up to the event that it is about to exit; the process is traced then
and standard input is closed. If a step fails, the message is the one of the first that fails, and the memory and the handle of
libdwfl are released. -/
theorem C124_prepare_partial (e : HookEnv) (wanted : Bool) (tid : Int) (w : World) (h1 : w.held .handle = false)
    (h2 : w.held .dwfl = false) :
    (∀ t, FailsWith (seizeSteps e tid) t →
      prepareHook e wanted tid w = .ok (false, ⟨w.held, if wanted then some t else w.message⟩)) ∧
    (AllDone (seizeSteps e tid) → ∀ t, FailsWith (closeSteps e) t →
      prepareHook e wanted tid w = .ok (false, ⟨traced w.held tid, if wanted then some t else w.message⟩)) ∧
    (AllDone (seizeSteps e tid) → AllDone (closeSteps e) → ∀ t, FailsWith (waitSteps e tid) t →
      prepareHook e wanted tid w = .ok (false, ⟨noStdin (traced w.held tid), if wanted then some t else w.message⟩)) ∧
    (AllDone (seizeSteps e tid) → AllDone (closeSteps e) → AllDone (waitSteps e tid) →
      prepareHook e wanted tid w = .ok (true, ⟨fun x => (noStdin (traced w.held tid) x || decide (x = .handle)) ||
        decide (x = .dwfl), if wanted then none else w.message⟩)) := by
  have hw : (if wanted then { w with message := none } else w).held = w.held := by cases wanted <;> rfl
  have hw' : (if wanted then { w with message := none } else w).message = if wanted then none else w.message := by
    cases wanted <;> rfl
  have hm : ∀ t : Str, (if wanted then some t else if wanted then none else w.message) = if wanted then some t else w.message := by
    intro t; cases wanted <;> rfl
  have g1 : traced w.held tid .handle = false := by simp [traced, h1]
  have g2 : traced w.held tid .dwfl = false := by simp [traced, h2]
  have k1 : noStdin (traced w.held tid) .handle = false := by simp [noStdin, g1]
  have k2 : noStdin (traced w.held tid) .dwfl = false := by simp [noStdin, g2]
  unfold prepareHook
  simp only [World.acquire, setError_eq, hw, hw', hm, swap_traced, swap_stdin, failHook_eq h1 h2, failHook_eq g1 g2,
    failHook_eq k1 k2]
  unfold seizeSteps closeSteps waitSteps
  simp only [allDone_cons, allDone_nil, and_true, failsWith_cons, failsWith_nil, and_false, or_false]
  refine ⟨?_, ?_, ?_, ?_⟩
  · rintro t (⟨a, rfl⟩ | ⟨a, ⟨b, rfl⟩ | ⟨b, c, rfl⟩⟩)
    · rw [if_pos (by simpa using a)]; rfl
    · rw [if_neg (by simp [a]), if_pos (by simpa using b)]; rfl
    · rw [if_neg (by simp [a]), if_neg (by simp [b]), if_pos (by simpa using c)]
  · rintro ⟨a, b, c⟩ t ⟨d, rfl⟩
    rw [if_neg (by simp [a]), if_neg (by simp [b]), if_neg (by simp [c]), if_pos (by simpa using d)]
  · rintro ⟨a, b, c⟩ d t h
    rw [if_neg (by simp [a]), if_neg (by simp [b]), if_neg (by simp [c]), if_neg (by simp [d])]
    cases hg : e.wait with
    | none =>
      rw [hg] at h
      simp at h
      subst h
      rfl
    | some got =>
      rw [hg] at h
      dsimp only
      rcases h with ⟨h, -⟩ | ⟨-, ⟨h, rfl⟩ | ⟨h, ⟨h', rfl⟩ | ⟨h', h'', rfl⟩⟩⟩
      · simp at h
      · rw [if_pos (by simpa using h)]; rfl
      · rw [if_neg (by simpa using h), if_pos (by simpa [wifstopped] using h')]
      · rw [if_neg (by simpa using h), if_neg (by simp [wifstopped, h']), if_pos (by simpa using h'')]
  · rintro ⟨a, b, c⟩ d ⟨-, h, h', h''⟩
    rw [if_neg (by simp [a]), if_neg (by simp [b]), if_neg (by simp [c]), if_neg (by simp [d]), h]
    dsimp only
    rw [if_neg (by simp), if_neg (by simp [wifstopped, h']), if_neg (by simp [h''])]

/-- C124: once the process is stopped, making the stack trace (C94) releases the memory and the handle of libdwfl, whatever happens;
the process stays traced. -/
theorem C124_hook (e : HookEnv) (ms : Modules) (attaches : Bool) (t : Thread) (wanted : Bool) (executable : Option Str)
    (signum : Int) (w : World) (h1 : w.held .handle = false) (h2 : w.held .dwfl = false) (hs : AllDone (seizeSteps e t.id))
    (hc : AllDone (closeSteps e)) (hw : AllDone (waitSteps e t.id)) :
    fromHookIn e ms attaches t wanted executable signum w =
      .ok ((fromCoreHook ms attaches t executable signum).1, (fromCoreHook ms attaches t executable signum).2,
        ⟨noStdin (traced w.held t.id), if wanted then none else w.message⟩) := by
  unfold fromHookIn
  rw [(C124_prepare_partial e wanted t.id w h1 h2).2.2.2 hs hc hw, Out.bind_ok]
  dsimp only
  rw [if_neg (by simp)]
  unfold freeState
  rw [release_back (by simp [noStdin, traced, h2]) (by simp [usedBy]), Out.bind_ok,
    release_back (by simp [noStdin, traced, h1]) (by simp [usedBy]), Out.bind_ok]
  rfl

/-- C124 is false for processes: if a step fails after the process is seized, there is no state, but the process stays traced. -/
theorem C124_not_detached (e : HookEnv) (wanted : Bool) (tid : Int) (w : World) (h1 : w.held .handle = false)
    (h2 : w.held .dwfl = false) (hs : AllDone (seizeSteps e tid)) (hf : ¬AllDone (closeSteps e ++ waitSteps e tid)) :
    ∃ w', prepareHook e wanted tid w = .ok (false, w') ∧ w'.held (.tracee tid) = true := by
  obtain ⟨-, ha, hb, -⟩ := C124_prepare_partial e wanted tid w h1 h2
  rcases done_or_fails (closeSteps e ++ waitSteps e tid) with h | ⟨t, h⟩
  · exact absurd h hf
  · rcases failsWith_append.1 h with h | ⟨h, h'⟩
    · exact ⟨_, ha hs t h, by simp [traced]⟩
    · exact ⟨_, hb hs h t h', by simp [noStdin, traced]⟩

example : AllDone (seizeSteps {} 7) ∧ ¬AllDone (closeSteps { } ++ waitSteps {} 7) ∧
    AllDone (waitSteps { wait := some 7, status := 0x6057f } 7) := by
  refine ⟨?_, ?_, (C124_status _ _).2 ⟨rfl, rfl⟩⟩
  · simp [seizeSteps, allDone_cons, allDone_nil]
  · simp [closeSteps, waitSteps, allDone_cons, allDone_nil]

/-- The next file that is opened after that is descriptor 0, so `C124_not_closed` applies. -/
theorem C124_hook_stdin (e : HookEnv) (wanted : Bool) (tid : Int) (w w' : World) (h1 : w.held .handle = false)
    (h2 : w.held .dwfl = false) (hs : AllDone (seizeSteps e tid)) (hc : AllDone (closeSteps e)) (ok : Bool)
    (h : prepareHook e wanted tid w = .ok (ok, w')) : w'.held (.fd 0) = false := by
  obtain ⟨-, -, hb, hd⟩ := C124_prepare_partial e wanted tid w h1 h2
  rcases done_or_fails (waitSteps e tid) with hw | ⟨t, hw⟩
  · rw [hd hs hc hw] at h
    cases h
    simp [noStdin]
  · rw [hb hs hc t hw] at h
    cases h
    simp [noStdin]

end Satyr.Unwind
