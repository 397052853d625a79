import Verif.Crash.Lemmas
/-!
# Properties of crash thread search and quality (C21, C22, C60, C61)
-/
namespace Satyr.Crash
open Satyr.CStr Satyr.Normalize Satyr.Frames Satyr.Threads

/-! ## Specification -/

/-- The function of the thread's top frame is the function of the crash frame. -/
def TopMatches (s : GdbTrace) (t : GdbThread) : Prop :=
  ∃ c f fs name, s.crash = some c ∧ c.functionName = some name ∧ t.frames = f :: fs ∧ f.functionName = some name

/-- Some frame of the thread is a known abort or exit function. -/
def Aborts (t : GdbThread) : Prop := ∃ f ∈ t.frames, Listed gdbExitTable f.functionName f.sourceFile

/-- The thread id of the crash is known and belongs to a thread of the stack trace. -/
def TidFound (s : GdbTrace) : Prop := s.crashTid ≠ noTid ∧ ∃ t ∈ s.threads, t.tid = s.crashTid

/-- A frame a user can make sense of: a signal handler frame, or one with known function and source file. -/
def Resolved (f : GdbFrame) : Prop :=
  f.signalHandlerCalled = true ∨
    ((∃ n, f.functionName = some n ∧ n ≠ c!"??") ∧ ∃ s, f.sourceFile = some s ∧ s ≠ [])

instance (f : GdbFrame) : Decidable (Resolved f) :=
  decidable_of_iff (f.signalHandlerCalled = true ∨
    ((f.functionName.any fun n => n != c!"??") = true ∧ (f.sourceFile.any fun s => s != []) = true)) (by
    unfold Resolved
    cases f.functionName <;> cases f.sourceFile <;> simp)

/-- A Java frame with a known location: native code or a known file. -/
def JavaResolved (f : JavaFrame) : Prop := f.isNative = true ∨ f.fileName ≠ none

instance (f : JavaFrame) : Decidable (JavaResolved f) := by unfold JavaResolved; infer_instance

/-! ## C21 -/

theorem sameName_iff (s : GdbTrace) (t : GdbThread) :
    (∃ c name, s.crash = some c ∧ c.functionName = some name ∧ sameName name t = true) ↔ TopMatches s t := by
  unfold sameName TopMatches
  constructor
  · rintro ⟨c, name, h1, h2, h3⟩
    split at h3
    · simp at h3
    · next f fs hf =>
      split at h3
      · simp at h3
      · next n hn =>
        have : n = name := strcmp_eq_zero.1 (by simpa using h3)
        subst this
        exact ⟨c, f, fs, n, h1, h2, hf, hn⟩
  · rintro ⟨c, f, fs, name, h1, h2, h3, h4⟩
    refine ⟨c, name, h1, h2, ?_⟩
    simp [h3, h4, strcmp_self]

theorem abort_iff (t : GdbThread) : (findExit gdbIsExit (nodes t.frames) none).isSome = true ↔ Aborts t := by
  rw [findExit_isSome]
  unfold Aborts
  simp only [Option.isSome_none, Bool.false_or, List.any_eq_true]
  have hv := nodes_val t.frames
  constructor
  · rintro ⟨n, hn, he⟩
    exact ⟨n.val, hv ▸ List.mem_map_of_mem hn, (any_callMatch_iff _ _ _).1 he⟩
  · rintro ⟨f, hf, he⟩
    rw [← hv, List.mem_map] at hf
    obtain ⟨n, hn, rfl⟩ := hf
    exact ⟨n, hn, (any_callMatch_iff _ _ _).2 he⟩

/-- What a search for the crash frame looks for. -/
def Cand (req : Requirement) (s : GdbTrace) (t : GdbThread) : Prop :=
  TopMatches s t ∧ (req = .abortFunction → Aborts t)

theorem isCand_iff (req : Requirement) {s : GdbTrace} {c : GdbFrame} {name : Str} (hc : s.crash = some c)
    (hn : c.functionName = some name) (t : GdbThread) : isCand req name t = true ↔ Cand req s t := by
  unfold isCand Cand
  rw [Bool.and_eq_true, ← sameName_iff]
  have h1 : sameName name t = true ↔ ∃ c name, s.crash = some c ∧ c.functionName = some name ∧ sameName name t = true := by
    constructor
    · exact fun h => ⟨c, name, hc, hn, h⟩
    · rintro ⟨c', name', h1, h2, h3⟩
      rw [hc] at h1; cases h1; rw [hn] at h2; cases h2; exact h3
  rw [h1]
  refine and_congr_right fun _ => ?_
  unfold abortSatisfied
  rw [Bool.or_eq_true, abort_iff]
  cases req <;> simp

theorem no_cand {s : GdbTrace} {t : GdbThread} {req : Requirement}
    (h : s.crash = none ∨ ∃ c, s.crash = some c ∧ c.functionName = none) : ¬ Cand req s t := by
  rintro ⟨⟨c, f, fs, name, h1, h2, _⟩, _⟩
  rcases h with h | ⟨c', h, h'⟩
  · rw [h1] at h; cases h
  · rw [h1] at h; cases h; rw [h2] at h'; cases h'

theorem only_eq_some {A : Type} {l : List A} {x : A} : only l = some x ↔ l = [x] := by
  cases l with
  | nil => simp [only]
  | cons a l => cases l <;> simp [only]

/-- The first two searches: the only candidate. -/
theorem findFrom_unique {req : Requirement} (hr : req ≠ .firstMatching) (s : GdbTrace) (i : Nat) :
    findFromCrashFrame s req = some i ↔ ∃ t, s.threads[i]? = some t ∧ Cand req s t ∧
      ∀ j u, s.threads[j]? = some u → Cand req s u → j = i := by
  unfold findFromCrashFrame
  split
  · next h => simp [no_cand (Or.inl h)]
  · next c hc =>
    split
    · next h => simp [no_cand (Or.inr ⟨c, hc, h⟩)]
    · next name hn =>
      have hi := isCand_iff req hc hn
      rw [findLoop_unique req hr]
      simp only [Option.toList, List.nil_append, Option.map_eq_some_iff, only_eq_some]
      constructor
      · rintro ⟨⟨i', t⟩, h, rfl⟩
        have hm := mem_cands.1 (show (i', t) ∈ cands (isCand req name) 0 s.threads by rw [h]; simp)
        refine ⟨t, hm.1, (hi t).1 hm.2, fun j u h1 h2 => ?_⟩
        have : (j, u) ∈ cands (isCand req name) 0 s.threads := mem_cands.2 ⟨h1, (hi u).2 h2⟩
        rw [h] at this
        simpa using (Prod.ext_iff.1 (List.mem_singleton.1 this)).1
      · rintro ⟨t, h1, h2, h3⟩
        refine ⟨(i, t), ?_, rfl⟩
        have hall : ∀ q ∈ cands (isCand req name) 0 s.threads, q = (i, t) := by
          rintro ⟨j, u⟩ hq
          have := mem_cands.1 hq
          have hj := h3 j u this.1 ((hi u).1 this.2)
          subst hj
          rw [this.1] at h1; cases h1; rfl
        have hmem : (i, t) ∈ cands (isCand req name) 0 s.threads := mem_cands.2 ⟨h1, (hi t).2 h2⟩
        have hnd := cands_nodup (isCand req name) s.threads
        revert hall hmem hnd
        generalize cands (isCand req name) 0 s.threads = l
        intro hall hmem hnd
        cases l with
        | nil => simp at hmem
        | cons a l =>
          have ha := hall a (by simp)
          cases l with
          | nil => rw [ha]
          | cons b l =>
            have hb := hall b (by simp)
            rw [ha, hb] at hnd
            simp at hnd

/-- The last search: a candidate if there is one. -/
theorem findFrom_first (s : GdbTrace) :
    (findFromCrashFrame s .firstMatching = none ↔ ∀ t ∈ s.threads, ¬ TopMatches s t) ∧
    ∀ i, findFromCrashFrame s .firstMatching = some i → ∃ t, s.threads[i]? = some t ∧ TopMatches s t ∧
      ((∀ u ∈ s.threads, ∀ f ∈ u.frames, Small f.sourceLine ∧ Small f.number) →
        ∀ u ∈ s.threads, TopMatches s u → framesCmp t.frames u.frames ≤ 0) := by
  have hC : ∀ t, Cand .firstMatching s t ↔ TopMatches s t := fun t => by simp [Cand]
  unfold findFromCrashFrame
  split
  · next h =>
    simp only [true_iff, reduceCtorEq, false_imp_iff, implies_true, and_true]
    exact fun t _ ht => no_cand (Or.inl h) ((hC t).2 ht)
  · next c hc =>
    split
    · next h =>
      simp only [true_iff, reduceCtorEq, false_imp_iff, implies_true, and_true]
      exact fun t _ ht => no_cand (Or.inr ⟨c, hc, h⟩) ((hC t).2 ht)
    · next name hn =>
      have hi := fun t => (isCand_iff .firstMatching hc hn t).trans (hC t)
      rw [(findLoop_first name s.threads 0).2]
      cases hl : cands (isCand .firstMatching name) 0 s.threads with
      | nil =>
        simp only [Option.map_none, true_iff, reduceCtorEq, false_imp_iff, implies_true, and_true]
        intro t ht hm
        obtain ⟨i, hi', he⟩ := List.getElem_of_mem ht
        have : (i, t) ∈ cands (isCand .firstMatching name) 0 s.threads :=
          mem_cands.2 ⟨by rw [List.getElem?_eq_getElem hi', he], (hi t).2 hm⟩
        rw [hl] at this; simp at this
      | cons q qs =>
        have hmem : ∀ i t, (i, t) ∈ q :: qs ↔ s.threads[i]? = some t ∧ TopMatches s t := by
          intro i t; rw [← hl, mem_cands, hi]
        have hres := foldl_minBy_mem qs q
        refine ⟨?_, ?_⟩
        · simp only [Option.map_some, reduceCtorEq, false_iff]
          intro h
          have := (hmem q.1 q.2).1 (by simp)
          exact h q.2 (List.mem_of_getElem? this.1) this.2
        · intro i h
          simp only [Option.map_some, Option.some.injEq] at h
          subst h
          have := (hmem (qs.foldl minBy q).1 (qs.foldl minBy q).2).1 hres
          refine ⟨_, this.1, this.2, fun hs u hu hm => ?_⟩
          obtain ⟨j, hj, he⟩ := List.getElem_of_mem hu
          have hu' : (j, u) ∈ q :: qs := (hmem j u).2 ⟨by rw [List.getElem?_eq_getElem hj, he], hm⟩
          refine foldl_minBy_le (C23_gdb_partial true) qs q ?_ (j, u) hu'
          rintro ⟨k, v⟩ hv
          exact hs v (List.mem_of_getElem? ((hmem k v).1 hv).1)

theorem findCrashThread_many (s : GdbTrace) (h : 2 ≤ s.threads.length) : findCrashThread s =
    ((if s.crashTid ≠ noTid then findTid s.crashTid 0 s.threads else none).or
      ((findFromCrashFrame s .oneMatching).or
        ((findFromCrashFrame s .abortFunction).or (findFromCrashFrame s .firstMatching)))) := by
  unfold findCrashThread
  split
  · next h' => rw [h'] at h; simp at h
  · next h' => rw [h'] at h; simp at h
  · cases (if s.crashTid ≠ noTid then findTid s.crashTid 0 s.threads else none) with
    | some i => rfl
    | none =>
      cases findFromCrashFrame s .oneMatching with
      | some i => rfl
      | none => cases findFromCrashFrame s .abortFunction <;> rfl

theorem tid_none (s : GdbTrace) (h : ¬ TidFound s) :
    (if s.crashTid ≠ noTid then findTid s.crashTid 0 s.threads else none) = none := by
  split
  · next hn =>
    rw [(findTid_spec s.crashTid s.threads 0).2]
    exact fun t ht he => h ⟨hn, t, ht, he⟩
  · rfl

/-- C21: the only thread of a stack trace is the crash thread. -/
theorem C21_single (s : GdbTrace) (t : GdbThread) (h : s.threads = [t]) : findCrashThread s = some 0 := by
  unfold findCrashThread; rw [h]

/-- C21: with several threads, if the thread id of the crash is known and present, the first thread with that id is
returned. -/
theorem C21_tid (s : GdbTrace) (h : 2 ≤ s.threads.length) (hf : TidFound s) :
    ∃ i t, findCrashThread s = some i ∧ s.threads[i]? = some t ∧ t.tid = s.crashTid ∧
      ∀ j u, j < i → s.threads[j]? = some u → u.tid ≠ s.crashTid := by
  obtain ⟨hn, t, ht, he⟩ := hf
  rw [findCrashThread_many s h, if_pos hn]
  cases hx : findTid s.crashTid 0 s.threads with
  | none => exact absurd he ((findTid_spec s.crashTid s.threads 0).2.1 hx t ht)
  | some i =>
    obtain ⟨_, ⟨u, h1, h2⟩, h3⟩ := ((findTid_spec s.crashTid s.threads 0).1 i).1 hx
    exact ⟨i, u, rfl, h1, h2, fun j v hj hv => h3 j v hj hv⟩

/-- C21: otherwise, if exactly one thread's top frame matches the crash frame, that thread is returned. -/
theorem C21_only_match (s : GdbTrace) (hf : ¬ TidFound s) (i : Nat) (t : GdbThread) (h : s.threads[i]? = some t)
    (hm : TopMatches s t) (hu : ∀ j u, s.threads[j]? = some u → TopMatches s u → j = i) :
    findCrashThread s = some i := by
  by_cases hl : 2 ≤ s.threads.length
  · rw [findCrashThread_many s hl, tid_none s hf,
      (findFrom_unique (req := .oneMatching) (by simp) s i).2
        ⟨t, h, ⟨hm, by simp⟩, fun j u h1 h2 => hu j u h1 h2.1⟩]
    rfl
  · cases hs : s.threads with
    | nil => rw [hs] at h; simp at h
    | cons a l =>
      cases l with
      | nil =>
        rw [hs] at h
        have : i = 0 := by
          by_contra hne
          rw [List.getElem?_eq_none (by simp; omega)] at h; simp at h
        rw [this]; exact C21_single s a hs
      | cons b l => rw [hs] at hl; simp at hl

/-- C21: otherwise, if several top frames match and exactly one of these threads contains a known abort function, that
thread is returned. -/
theorem C21_only_abort (s : GdbTrace) (hf : ¬ TidFound s) (i j : Nat) (t u : GdbThread) (h : s.threads[i]? = some t)
    (hj : s.threads[j]? = some u) (hij : i ≠ j) (hm : TopMatches s t) (hmu : TopMatches s u) (ha : Aborts t)
    (hu : ∀ k v, s.threads[k]? = some v → TopMatches s v → Aborts v → k = i) :
    findCrashThread s = some i := by
  have hl : 2 ≤ s.threads.length := by
    have h1 := (List.getElem?_eq_some_iff.1 h).1
    have h2 := (List.getElem?_eq_some_iff.1 hj).1
    omega
  rw [findCrashThread_many s hl, tid_none s hf]
  have h1 : findFromCrashFrame s .oneMatching = none := by
    cases hx : findFromCrashFrame s .oneMatching with
    | none => rfl
    | some k =>
      obtain ⟨_, _, _, h3⟩ := (findFrom_unique (by simp) s k).1 hx
      have e1 := h3 i t h ⟨hm, by simp⟩
      have e2 := h3 j u hj ⟨hmu, by simp⟩
      omega
  rw [h1, (findFrom_unique (req := .abortFunction) (by simp) s i).2
    ⟨t, h, ⟨hm, fun _ => ha⟩, fun k v h1 h2 => hu k v h1 h2.1 (h2.2 rfl)⟩]
  rfl

/-- C21: otherwise, if some top frame matches, a matching thread is returned, and in the remaining ambiguous case one
that is smallest in the order of frame lists (line and frame numbers below 2^31). -/
theorem C21_some_match (s : GdbTrace) (hf : ¬ TidFound s) (hl : 2 ≤ s.threads.length)
    (hm : ∃ t ∈ s.threads, TopMatches s t) :
    ∃ i t, findCrashThread s = some i ∧ s.threads[i]? = some t ∧ TopMatches s t ∧
      ((∃ (j : Nat) (u : GdbThread), s.threads[j]? = some u ∧ TopMatches s u ∧ j ≠ i) →
        (¬ ∃ (j : Nat) (u : GdbThread), s.threads[j]? = some u ∧ TopMatches s u ∧ Aborts u ∧
          ∀ (k : Nat) (v : GdbThread), s.threads[k]? = some v → TopMatches s v → Aborts v → k = j) →
        (∀ u ∈ s.threads, ∀ f ∈ u.frames, Small f.sourceLine ∧ Small f.number) →
        ∀ u ∈ s.threads, TopMatches s u → framesCmp t.frames u.frames ≤ 0) := by
  rw [findCrashThread_many s hl, tid_none s hf]
  cases h1 : findFromCrashFrame s .oneMatching with
  | some i =>
    obtain ⟨t, h2, h3, h4⟩ := (findFrom_unique (by simp) s i).1 h1
    refine ⟨i, t, rfl, h2, h3.1, ?_⟩
    rintro ⟨j, u, h5, h6, h7⟩
    exact absurd (h4 j u h5 ⟨h6, by simp⟩) h7
  | none =>
    cases h2 : findFromCrashFrame s .abortFunction with
    | some i =>
      obtain ⟨t, h2, h3, h4⟩ := (findFrom_unique (by simp) s i).1 h2
      refine ⟨i, t, rfl, h2, h3.1, ?_⟩
      intro _ h6
      exact absurd ⟨i, t, h2, h3.1, h3.2 rfl, fun k v h7 h8 h9 => h4 k v h7 ⟨h8, fun _ => h9⟩⟩ h6
    | none =>
      cases h3 : findFromCrashFrame s .firstMatching with
      | none =>
        obtain ⟨t, ht, hm⟩ := hm
        exact absurd hm ((findFrom_first s).1.1 h3 t ht)
      | some i =>
        obtain ⟨t, h4, h5, h6⟩ := (findFrom_first s).2 i h3
        exact ⟨i, t, rfl, h4, h5, fun _ _ hs => h6 hs⟩

/-- C21: no thread is found only if the heuristics leave no candidate: there is no thread, or there are several, the
thread id does not help, and no top frame matches the crash frame. -/
theorem C21_none (s : GdbTrace) :
    findCrashThread s = none ↔
      s.threads = [] ∨ (2 ≤ s.threads.length ∧ ¬ TidFound s ∧ ∀ t ∈ s.threads, ¬ TopMatches s t) := by
  by_cases hl : 2 ≤ s.threads.length
  · have hne : s.threads ≠ [] := by intro h; rw [h] at hl; simp at hl
    simp only [hne, hl, false_or, true_and]
    constructor
    · intro h
      have ht : ¬ TidFound s := by
        intro ht
        obtain ⟨i, t, h1, _⟩ := C21_tid s hl ht
        rw [h] at h1; cases h1
      refine ⟨ht, fun t hm hmt => ?_⟩
      obtain ⟨i, t, h1, _⟩ := C21_some_match s ht hl ⟨t, hm, hmt⟩
      rw [h] at h1; cases h1
    · rintro ⟨h1, h2⟩
      rw [findCrashThread_many s hl, tid_none s h1]
      have hu : ∀ req, req ≠ .firstMatching → findFromCrashFrame s req = none := by
        intro req hr
        cases hx : findFromCrashFrame s req with
        | none => rfl
        | some k =>
          obtain ⟨t, h3, h4, _⟩ := (findFrom_unique hr s k).1 hx
          exact absurd h4.1 (h2 t (List.mem_of_getElem? h3))
      rw [hu _ (by simp), hu _ (by simp), (findFrom_first s).1.2 h2]
      rfl
  · cases hs : s.threads with
    | nil => simp [findCrashThread, hs]
    | cons a l =>
      cases l with
      | nil => simp [C21_single s a hs]
      | cons b l => rw [hs] at hl; simp at hl

/-- C21: what is returned is a thread of the stack trace. -/
theorem C21_in_trace (s : GdbTrace) (i : Nat) (h : findCrashThread s = some i) : i < s.threads.length := by
  by_cases hl : 2 ≤ s.threads.length
  · by_cases ht : TidFound s
    · obtain ⟨j, t, h1, h2, _⟩ := C21_tid s hl ht
      rw [h] at h1; cases h1
      exact (List.getElem?_eq_some_iff.1 h2).1
    · have hm : ∃ t ∈ s.threads, TopMatches s t := by
        by_contra hno
        have : findCrashThread s = none := (C21_none s).2 (Or.inr ⟨hl, ht, fun t h1 h2 => hno ⟨t, h1, h2⟩⟩)
        rw [h] at this; cases this
      obtain ⟨j, t, h1, h2, _⟩ := C21_some_match s ht hl hm
      rw [h] at h1; cases h1
      exact (List.getElem?_eq_some_iff.1 h2).1
  · cases hs : s.threads with
    | nil => simp [findCrashThread, hs] at h
    | cons a l =>
      cases l with
      | nil => rw [C21_single s a hs] at h; cases h; simp
      | cons b l => rw [hs] at hl; simp at hl

section Examples

def fr (n : Str) (file : Str := c!"a.c") : GdbFrame := { functionName := some n, sourceFile := some file }

/-- Three threads, two matching the crash frame, one of them with an abort function. -/
def exTrace : GdbTrace :=
  { threads := [{ number := 1, tid := 7, frames := [fr c!"wait"] }, { number := 2, tid := 8, frames := [fr c!"f", fr c!"g"] },
      { number := 3, tid := 9, frames := [fr c!"f", fr c!"abort" c!"abort.c"] }],
    crash := some (fr c!"f"), crashTid := noTid }

example : findCrashThread exTrace = some 2 := by decide +kernel
example : findCrashThread { exTrace with crashTid := 8 } = some 1 := by decide +kernel
example : findCrashThread { exTrace with crash := some (fr c!"wait") } = some 0 := by decide +kernel
example : findCrashThread { exTrace with crash := some (fr c!"x") } = none := by decide +kernel
example : ¬ TidFound exTrace := by simp [TidFound, exTrace]
example : TopMatches exTrace (exTrace.threads.getD 2 {}) := ⟨_, _, _, _, rfl, rfl, rfl, rfl⟩
example : Aborts (exTrace.threads.getD 2 {}) := (abort_iff _).1 (by decide +kernel)
example : ¬ Aborts (exTrace.threads.getD 1 {}) := fun h => absurd ((abort_iff _).2 h) (by decide +kernel)

end Examples

end Satyr.Crash
