import Verif.Crash.Props
import Mathlib.Tactic.FieldSimp
/-!
# Quality (C22) and crash thread after normalization (C61)
-/
namespace Satyr.Crash
open Satyr.CStr Satyr.Normalize Satyr.Frames Satyr.Threads

/-! ## C22 -/

theorem resolved_iff (f : GdbFrame) :
    (f.signalHandlerCalled || (hasName f && hasSource f)) = decide (Resolved f) := by
  rw [Bool.eq_iff_iff, decide_eq_true_iff]
  unfold Resolved hasName hasSource
  have hs : ∀ n, strcmp n c!"??" = 0 ↔ n = c!"??" := fun n => strcmp_eq_zero
  cases h1 : f.functionName <;> cases h2 : f.sourceFile <;> simp [hs]

theorem qualityCounts_eq (fs : List GdbFrame) : ∀ a b,
    qualityCounts fs (a, b) = (a + fs.countP (fun f => decide (Resolved f)), b + fs.length) := by
  induction fs with
  | nil => intro a b; rfl
  | cons f fs ih =>
    intro a b
    rw [qualityCounts]
    simp only [resolved_iff]
    rw [ih, List.countP_cons, List.length_cons]
    ext
    · simp only; split <;> omega
    · simp only; omega

theorem javaQualityCounts_eq (fs : List JavaFrame) : ∀ a b,
    javaQualityCounts fs (a, b) = (a + fs.countP (fun f => decide (JavaResolved f)), b + fs.length) := by
  have h : ∀ f : JavaFrame, (f.isNative || f.fileName.isSome) = decide (JavaResolved f) := by
    intro f
    rw [Bool.eq_iff_iff, decide_eq_true_iff]
    unfold JavaResolved
    cases f.fileName <;> simp
  induction fs with
  | nil => intro a b; rfl
  | cons f fs ih =>
    intro a b
    rw [javaQualityCounts, h, ih, List.countP_cons, List.length_cons]
    ext
    · simp only; split <;> omega
    · simp only; omega

theorem simpleCounts_eq (ts : List GdbThread) : ∀ a b,
    simpleCounts ts (a, b) = (a + (ts.flatMap GdbThread.frames).countP (fun f => decide (Resolved f)),
      b + (ts.flatMap GdbThread.frames).length) := by
  induction ts with
  | nil => intro a b; rfl
  | cons t ts ih =>
    intro a b
    rw [simpleCounts, qualityCounts_eq, ih, List.flatMap_cons, List.countP_append, List.length_append]
    ext
    · simp only; omega
    · simp only; omega

/-- A ratio of counts. -/
theorem ratio {A : Type} (p : A → Bool) (l : List A) (h : l ≠ []) :
    0 ≤ (l.countP p : Rat) / l.length ∧ (l.countP p : Rat) / l.length ≤ 1 ∧
    ((l.countP p : Rat) / l.length = 1 ↔ ∀ x ∈ l, p x = true) := by
  have hl : (0 : Rat) < l.length := by exact_mod_cast List.length_pos_iff.2 h
  have hc : l.countP p ≤ l.length := List.countP_le_length
  refine ⟨by positivity, ?_, ?_⟩
  · rw [div_le_one hl]; exact_mod_cast hc
  · rw [div_eq_one_iff_eq (ne_of_gt hl), ← List.countP_eq_length]
    exact_mod_cast Iff.rfl

/-- C22: the quality of a GDB thread is the fraction of resolved frames, 1 for a thread without frames; it lies between
0 and 1 and is 1 exactly if every frame is resolved. -/
theorem C22_gdb_thread (t : GdbThread) :
    (t.frames ≠ [] → threadQuality t = (t.frames.countP fun f => decide (Resolved f)) / t.frames.length) ∧
    0 ≤ threadQuality t ∧ threadQuality t ≤ 1 ∧ (threadQuality t = 1 ↔ ∀ f ∈ t.frames, Resolved f) := by
  unfold threadQuality
  rw [qualityCounts_eq]
  simp only [Nat.zero_add]
  by_cases h : t.frames = []
  · simp [h]
  · have hl : t.frames.length ≠ 0 := by simpa using h
    rw [if_neg hl]
    have := ratio (fun f => decide (Resolved f)) t.frames h
    simp only [decide_eq_true_iff] at this
    exact ⟨fun _ => rfl, this⟩

/-- C22: the same for Java threads. -/
theorem C22_java_thread (t : JavaThread) :
    (t.frames ≠ [] → javaThreadQuality t = (t.frames.countP fun f => decide (JavaResolved f)) / t.frames.length) ∧
    0 ≤ javaThreadQuality t ∧ javaThreadQuality t ≤ 1 ∧ (javaThreadQuality t = 1 ↔ ∀ f ∈ t.frames, JavaResolved f) := by
  unfold javaThreadQuality
  rw [javaQualityCounts_eq]
  simp only [Nat.zero_add]
  by_cases h : t.frames = []
  · simp [h]
  · have hl : t.frames.length ≠ 0 := by simpa using h
    rw [if_neg hl]
    have := ratio (fun f => decide (JavaResolved f)) t.frames h
    simp only [decide_eq_true_iff] at this
    exact ⟨fun _ => rfl, this⟩

/-- C22: the simple quality of a stack trace is the fraction of resolved frames over all threads, 0 if there is no
frame; it lies between 0 and 1 and is 1 exactly if there is a frame and every frame is resolved. -/
theorem C22_simple (s : GdbTrace) :
    ((s.threads.flatMap GdbThread.frames) ≠ [] → qualitySimple s =
      ((s.threads.flatMap GdbThread.frames).countP fun f => decide (Resolved f)) /
        (s.threads.flatMap GdbThread.frames).length) ∧
    0 ≤ qualitySimple s ∧ qualitySimple s ≤ 1 ∧
    (qualitySimple s = 1 ↔ (∃ t ∈ s.threads, t.frames ≠ []) ∧ ∀ t ∈ s.threads, ∀ f ∈ t.frames, Resolved f) := by
  unfold qualitySimple
  rw [simpleCounts_eq]
  simp only [Nat.zero_add]
  have hne : (s.threads.flatMap GdbThread.frames) ≠ [] ↔ ∃ t ∈ s.threads, t.frames ≠ [] := by
    rw [ne_eq, List.flatMap_eq_nil_iff]; simp
  rw [← hne]
  by_cases h : s.threads.flatMap GdbThread.frames = []
  · simp [h]
  · have hl : (s.threads.flatMap GdbThread.frames).length ≠ 0 := by rw [ne_eq, List.length_eq_zero_iff]; exact h
    rw [if_neg hl]
    have := ratio (fun f => decide (Resolved f)) _ h
    refine ⟨fun _ => rfl, this.1, this.2.1, this.2.2.trans ?_⟩
    simp only [decide_eq_true_iff, List.mem_flatMap]
    exact ⟨fun hh => ⟨h, fun t ht f hf => hh f ⟨t, ht, hf⟩⟩, fun hh f ⟨t, ht, hf⟩ => hh.2 t ht f hf⟩

theorem removeFramesBelow_five (fs : List GdbFrame) :
    ∃ r, removeFramesBelow 5 (nodes fs) = .ok r := ⟨_, if_pos (by decide)⟩

/-- C22: the complex quality never fails, and lies between 0 and 1. -/
theorem C22_complex (s : GdbTrace) : ∃ q, qualityComplex s = .ok q ∧ 0 ≤ q ∧ q ≤ 1 := by
  unfold qualityComplex
  rw [normalizeTrace_eq]
  simp only [Out.bind_ok]
  have h1 := (C22_simple (normTrace (rememberCrashTid s))).2
  split
  · exact ⟨_, rfl, h1.1, h1.2.1⟩
  · next i _ =>
    generalize (normTrace (rememberCrashTid s)).threads.getD i {} = t
    obtain ⟨r, hr⟩ := removeFramesBelow_five t.frames
    rw [hr]
    refine ⟨_, rfl, ?_⟩
    have h2 := (C22_gdb_thread t).2
    have h3 := (C22_gdb_thread { t with frames := r.map Node.val }).2
    constructor <;> linarith [h1.1, h1.2.1, h2.1, h2.2.1, h3.1, h3.2.1]

theorem remember_threads (s : GdbTrace) : (rememberCrashTid s).threads = s.threads := by
  unfold rememberCrashTid; split
  · split <;> rfl
  · rfl

/-- C22: the exact value of the complex quality: a quarter of the simple quality of the normalized stack trace, 35 % the
quality of its crash thread and 40 % the quality of the five topmost frames of that thread. The crash thread is that of
the stack trace before normalization. -/
theorem C22_complex_value (s : GdbTrace) (i : Nat) (h : findCrashThread s = some i) :
    ∃ n t, normalizeTrace s = .ok n ∧ n.threads[i]? = some t ∧
      qualityComplex s = .ok (1 / 4 * qualitySimple n + 7 / 20 * threadQuality t +
        2 / 5 * threadQuality { t with frames := t.frames.take 5 }) := by
  have hi := C21_in_trace s i h
  have hsome : (normTrace (rememberCrashTid s)).threads[i]? = some ((normTrace (rememberCrashTid s)).threads.getD i {}) := by
    rw [List.getD_eq_getElem?_getD, List.getElem?_eq_getElem (by simpa [normTrace, remember_threads] using hi)]
    rfl
  refine ⟨_, _, normalizeTrace_eq s, hsome, ?_⟩
  unfold qualityComplex
  rw [normalizeTrace_eq, h]
  simp only [Out.bind_ok]
  generalize (normTrace (rememberCrashTid s)).threads.getD i {} = t
  have hw : ∀ (n : Nat) (l : List (Node GdbFrame)), (walk n l).1 = l.take n := by
    intro n
    induction n with
    | zero => intro l; rfl
    | succ n ih => intro l; cases l with
      | nil => rfl
      | cons a l => rw [walk, List.take_succ_cons, ih]
  have : removeFramesBelow 5 (nodes t.frames) = .ok ((nodes t.frames).take 5) := by
    unfold removeFramesBelow
    rw [if_pos (by decide), hw]; rfl
  rw [this]
  simp only [Out.bind_ok, List.map_take, nodes_val]

section Examples

example : threadQuality { frames := [fr c!"f", { functionName := some c!"??" }] } = 1 / 2 := by decide +kernel
example : qualitySimple exTrace = 1 := by decide +kernel
example : qualitySimple {} = 0 := by decide +kernel
example : javaThreadQuality { frames := [{ name := some c!"f" }, { isNative := true }] } = 1 / 2 := by decide +kernel
example : qualityComplex { exTrace with crashTid := 8 } = .ok 1 := by decide +kernel

end Examples

/-! ## C61 -/

/-- C61: if the thread id of the crash is not known yet, the thread ids are distinct and the one of the crash thread is
known, then the crash thread of the normalized stack trace is the crash thread of the original one. -/
theorem C61_remembered_partial (s : GdbTrace) (hs : s.crashTid = noTid) (hd : (s.threads.map GdbThread.tid).Nodup)
    (i : Nat) (t : GdbThread) (h : findCrashThread s = some i) (ht : s.threads[i]? = some t) (hn : t.tid ≠ noTid) :
    ∃ n, normalizeTrace s = .ok n ∧ n.crashTid = t.tid ∧ findCrashThread n = some i := by
  have hr : rememberCrashTid s = { s with crashTid := t.tid } := by
    unfold rememberCrashTid
    rw [if_pos hs, h]
    simp [List.getD_eq_getElem?_getD, ht]
  refine ⟨_, normalizeTrace_eq s, by rw [hr]; rfl, ?_⟩
  rw [hr]
  by_cases hl : 2 ≤ s.threads.length
  · obtain ⟨j, u, h1, h2, h3, _⟩ := C21_tid
      (normTrace { s with crashTid := t.tid }) (by simpa [normTrace] using hl)
      ⟨hn, _, List.mem_map_of_mem (List.mem_of_getElem? ht), rfl⟩
    rw [h1]
    simp only [normTrace, List.getElem?_map, Option.map_eq_some_iff] at h2
    obtain ⟨v, hv, rfl⟩ := h2
    have e1 : (s.threads.map GdbThread.tid)[j]? = some t.tid := by rw [List.getElem?_map, hv]; exact congrArg some h3
    have e2 : (s.threads.map GdbThread.tid)[i]? = some t.tid := by rw [List.getElem?_map, ht]; rfl
    have hj := (List.getElem?_eq_some_iff.1 e1).1
    rw [(List.getElem?_inj hj hd).1 (e1.trans e2.symm)]
  · cases hs : s.threads with
    | nil => rw [hs] at ht; simp at ht
    | cons a l =>
      cases l with
      | nil =>
        have hi := C21_in_trace s i h
        rw [hs] at hi
        have : i = 0 := by simpa using hi
        rw [this]
        exact C21_single _ (normThread a) (by simp [normTrace])
      | cons b l => rw [hs] at hl; simp at hl

/-- C61: the same if the thread id of the crash is known and belongs to a thread. -/
theorem C61_known_partial (s : GdbTrace) (hf : TidFound s) (i : Nat) (h : findCrashThread s = some i) :
    ∃ n, normalizeTrace s = .ok n ∧ n.crashTid = s.crashTid ∧ findCrashThread n = some i := by
  have hr : rememberCrashTid s = s := by unfold rememberCrashTid; rw [if_neg hf.1]
  refine ⟨_, normalizeTrace_eq s, by rw [hr]; rfl, ?_⟩
  rw [hr]
  by_cases hl : 2 ≤ s.threads.length
  · have hf' := hf
    obtain ⟨hn, t, ht, he⟩ := hf
    obtain ⟨j, u, h1, h2, h3, h4⟩ := C21_tid
      (normTrace s) (by simpa [normTrace] using hl)
      ⟨hn, _, List.mem_map_of_mem ht, he⟩
    rw [h1]
    obtain ⟨i', u', g1, g2, g3, g4⟩ := C21_tid s hl hf'
    rw [h] at g1; cases g1
    simp only [normTrace, List.getElem?_map, Option.map_eq_some_iff] at h2
    obtain ⟨v, hv, rfl⟩ := h2
    rcases Nat.lt_trichotomy i j with hij | hij | hij
    · exact absurd g3 (h4 i (normThread u') hij (by simp only [normTrace, List.getElem?_map, g2, Option.map_some]))
    · rw [hij]
    · exact absurd h3 (g4 j v hij hv)
  · cases hs : s.threads with
    | nil => simp [findCrashThread, hs] at h
    | cons a l =>
      cases l with
      | nil => rw [C21_single s a hs] at h; cases h; exact C21_single _ (normThread a) (by simp [normTrace, hs])
      | cons b l => rw [hs] at hl; simp at hl

/-- A stack trace that knows no thread ids: normalization removes the frames that identify the crash thread. -/
def forgetTrace : GdbTrace :=
  { threads := [{ number := 1, tid := noTid, frames := [fr c!"wait"] },
      { number := 2, tid := noTid, frames := [fr c!"raise" c!"raise.c", fr c!"f"] }],
    crash := some (fr c!"raise" c!"raise.c"), crashTid := noTid }

/-- C61 fails if thread ids are unknown: the crash thread is found before normalization, but not afterwards. -/
theorem C61_not_unknown_tid : findCrashThread forgetTrace = some 1 ∧
    ∃ n, normalizeTrace forgetTrace = .ok n ∧ findCrashThread n = none :=
  ⟨by decide +kernel, _, normalizeTrace_eq _, by decide +kernel⟩

/-- C61 fails if the recorded thread id belongs to no thread. -/
theorem C61_not_missing_tid : findCrashThread { forgetTrace with crashTid := 5 } = some 1 ∧
    ∃ n, normalizeTrace { forgetTrace with crashTid := 5 } = .ok n ∧ findCrashThread n = none :=
  ⟨by decide +kernel, _, normalizeTrace_eq _, by decide +kernel⟩

example : exTrace.crashTid = noTid ∧ (exTrace.threads.map GdbThread.tid).Nodup ∧ findCrashThread exTrace = some 2 ∧
    (exTrace.threads[2]?.map GdbThread.tid) = some 9 := by decide +kernel

end Satyr.Crash
