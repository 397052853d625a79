import Verif.Rounding
import Verif.Crash.Quality
/-!
# Quality as a `float` (C22)

`R` rounds to `float`. The constants `0.35f` and `0.4f` are rounded by the compiler, to nearest.
-/
namespace Satyr.Crash
open Satyr.CStr Satyr.Normalize Satyr.Frames Satyr.Threads

variable (R : Rounding 24)

/-- `ok_count / (float)all_count`, the last line of the quality functions. -/
def ratioFloat (ok all : Nat) : Rat := R.rnd (R.rnd ok / R.rnd all)

/-- `sr_gdb_thread_quality` (lib/gdb_thread.c:185-194). -/
def threadQualityFloat (t : GdbThread) : Rat :=
  let c := qualityCounts t.frames (0, 0)
  if c.2 = 0 then 1 else ratioFloat R c.1 c.2

/-- `sr_java_thread_quality` (lib/java_thread.c:173-182). -/
def javaThreadQualityFloat (t : JavaThread) : Rat :=
  let c := javaQualityCounts t.frames (0, 0)
  if c.2 = 0 then 1 else ratioFloat R c.1 c.2

/-- `sr_gdb_stacktrace_quality_simple` (lib/gdb_stacktrace.c:328-343). -/
def qualitySimpleFloat (s : GdbTrace) : Rat :=
  let c := simpleCounts s.threads (0, 0)
  if c.2 = 0 then 0 else ratioFloat R c.1 c.2

/-- The last line of `sr_gdb_stacktrace_quality_complex` (lib/gdb_stacktrace.c:383), without contraction to fused operations. -/
def weighted (q1 q2 q3 : Rat) : Rat :=
  R.rnd (R.rnd (R.rnd (float32.rnd (1 / 4) * q1) + R.rnd (float32.rnd (7 / 20) * q2)) + R.rnd (float32.rnd (2 / 5) * q3))

/-- `sr_gdb_stacktrace_quality_complex` (lib/gdb_stacktrace.c:345-384). -/
def qualityComplexFloat (s : GdbTrace) : Out Rat := do
  let crash := findCrashThread s
  let s ← normalizeTrace s
  let q1 := qualitySimpleFloat R s
  match crash with
  | none => .ok q1
  | some i => do
    let t := s.threads.getD i {}
    let q2 := threadQualityFloat R t
    let r ← removeFramesBelow 5 (nodes t.frames)
    let q3 := threadQualityFloat R { t with frames := r.map Node.val }
    .ok (weighted R q1 q2 q3)

theorem ratioFloat_range {ok all : Nat} (h : ok ≤ all) : 0 ≤ ratioFloat R ok all ∧ ratioFloat R ok all ≤ 1 :=
  R.div_range (R.nonneg (Nat.cast_nonneg _)) (R.mono _ _ (by exact_mod_cast h))

theorem ratioFloat_eq {ok all : Nat} (h : ok ≤ all) (ha : all ≤ 2 ^ 24) : ratioFloat R ok all = R.rnd ((ok : Rat) / all) := by
  unfold ratioFloat
  rw [R.keeps_nat ok (by omega), R.keeps_nat all ha]

theorem ratioFloat_one {ok all : Nat} (h : ok ≤ all) (h0 : all ≠ 0) (ha : all ≤ 2 ^ 24) : ratioFloat R ok all = 1 ↔ ok = all := by
  have hu0 : (0 : Rat) < all := by exact_mod_cast Nat.pos_of_ne_zero h0
  rw [ratioFloat_eq R h ha]
  constructor
  · intro e
    by_contra hne
    have h1 : (ok : Rat) + 1 ≤ all := by exact_mod_cast (by omega : ok + 1 ≤ all)
    have h2 : (all : Rat) ≤ 2 ^ 24 := by exact_mod_cast ha
    have h3 : (ok : Rat) / all ≤ 1 - 1 / 2 ^ 24 := by
      rw [div_le_iff₀ hu0]
      have : (1 : Rat) / 2 ^ 24 * all ≤ 1 := by
        rw [div_mul_eq_mul_div, one_mul, div_le_one (by norm_num)]
        exact h2
      linarith
    have h4 := R.le_below_one (by norm_num) (by norm_num) h3
    rw [e] at h4
    norm_num at h4
  · rintro rfl
    rw [div_self hu0.ne', R.one]

/-- A ratio of counts. -/
theorem ratioFloat_list {A : Type} (p : A → Bool) (l : List A) (h : l ≠ []) :
    0 ≤ ratioFloat R (l.countP p) l.length ∧ ratioFloat R (l.countP p) l.length ≤ 1 ∧
    (l.length ≤ 2 ^ 24 → (ratioFloat R (l.countP p) l.length = R.rnd ((l.countP p : Rat) / l.length) ∧
      (ratioFloat R (l.countP p) l.length = 1 ↔ ∀ x ∈ l, p x = true))) := by
  have hc : l.countP p ≤ l.length := List.countP_le_length
  have hr := ratioFloat_range R hc
  refine ⟨hr.1, hr.2, fun hl => ⟨ratioFloat_eq R hc hl, ?_⟩⟩
  rw [ratioFloat_one R hc (by simpa using h) hl]
  exact List.countP_eq_length

/-- **C22.** As a `float`, whatever the rounding mode: the quality of a GDB thread lies between 0 and 1; for a thread of up to 2^24
frames it is the exact fraction, rounded once, and it is 1 exactly if every frame is resolved. -/
theorem C22_float_gdb_thread (t : GdbThread) : 0 ≤ threadQualityFloat R t ∧ threadQualityFloat R t ≤ 1 ∧
    (t.frames.length ≤ 2 ^ 24 → threadQualityFloat R t = R.rnd (threadQuality t) ∧
      (threadQualityFloat R t = 1 ↔ ∀ f ∈ t.frames, Resolved f)) := by
  unfold threadQualityFloat threadQuality
  rw [qualityCounts_eq]
  simp only [Nat.zero_add]
  by_cases h : t.frames = []
  · simp [h, R.one]
  · have hl : t.frames.length ≠ 0 := by simpa using h
    rw [if_neg hl, if_neg hl]
    have := ratioFloat_list R (fun f => decide (Resolved f)) t.frames h
    simp only [decide_eq_true_iff] at this
    exact this

/-- **C22.** The same for Java threads. -/
theorem C22_float_java_thread (t : JavaThread) : 0 ≤ javaThreadQualityFloat R t ∧ javaThreadQualityFloat R t ≤ 1 ∧
    (t.frames.length ≤ 2 ^ 24 → javaThreadQualityFloat R t = R.rnd (javaThreadQuality t) ∧
      (javaThreadQualityFloat R t = 1 ↔ ∀ f ∈ t.frames, JavaResolved f)) := by
  unfold javaThreadQualityFloat javaThreadQuality
  rw [javaQualityCounts_eq]
  simp only [Nat.zero_add]
  by_cases h : t.frames = []
  · simp [h, R.one]
  · have hl : t.frames.length ≠ 0 := by simpa using h
    rw [if_neg hl, if_neg hl]
    have := ratioFloat_list R (fun f => decide (JavaResolved f)) t.frames h
    simp only [decide_eq_true_iff] at this
    exact this

/-- **C22.** The same for the simple quality of a stack trace. -/
theorem C22_float_simple (s : GdbTrace) : 0 ≤ qualitySimpleFloat R s ∧ qualitySimpleFloat R s ≤ 1 ∧
    ((s.threads.flatMap GdbThread.frames).length ≤ 2 ^ 24 → qualitySimpleFloat R s = R.rnd (qualitySimple s) ∧
      (qualitySimpleFloat R s = 1 ↔ (∃ t ∈ s.threads, t.frames ≠ []) ∧ ∀ t ∈ s.threads, ∀ f ∈ t.frames, Resolved f)) := by
  unfold qualitySimpleFloat qualitySimple
  rw [simpleCounts_eq]
  simp only [Nat.zero_add]
  have hne : (s.threads.flatMap GdbThread.frames) ≠ [] ↔ ∃ t ∈ s.threads, t.frames ≠ [] := by
    rw [ne_eq, List.flatMap_eq_nil_iff]; simp
  rw [← hne]
  by_cases h : s.threads.flatMap GdbThread.frames = []
  · simp [h, R.zero]
  · have hl : (s.threads.flatMap GdbThread.frames).length ≠ 0 := by rw [ne_eq, List.length_eq_zero_iff]; exact h
    rw [if_neg hl, if_neg hl]
    have := ratioFloat_list R (fun f => decide (Resolved f)) _ h
    refine ⟨this.1, this.2.1, fun hb => ⟨(this.2.2 hb).1, (this.2.2 hb).2.trans ?_⟩⟩
    simp only [decide_eq_true_iff, List.mem_flatMap]
    exact ⟨fun hh => ⟨h, fun t ht f hf => hh f ⟨t, ht, hf⟩⟩, fun hh f ⟨t, ht, hf⟩ => hh.2 t ht f hf⟩

/-! ### The weights -/

theorem weight1 : float32.rnd (1 / 4) = 8388608 / 33554432 := by decide +kernel
theorem weight2 : float32.rnd (7 / 20) = 11744051 / 33554432 := by decide +kernel
theorem weight3 : float32.rnd (2 / 5) = 13421773 / 33554432 := by decide +kernel
theorem kept2 : float32.rnd (11744051 / 33554432) = 11744051 / 33554432 := by decide +kernel
theorem kept3 : float32.rnd (13421773 / 33554432) = 13421773 / 33554432 := by decide +kernel
theorem kept1 : float32.rnd (8388608 / 33554432) = 8388608 / 33554432 := by decide +kernel
/-- The sum of the first two weights does not fit. -/
theorem sum12 : float32.rnd (20132659 / 33554432) = 20132660 / 33554432 := by decide +kernel
theorem sum123 : float32.rnd (33554433 / 33554432) = 1 := by decide +kernel

theorem weighted_range {q1 q2 q3 : Rat} (h1 : 0 ≤ q1 ∧ q1 ≤ 1) (h2 : 0 ≤ q2 ∧ q2 ≤ 1) (h3 : 0 ≤ q3 ∧ q3 ≤ 1) :
    0 ≤ weighted float32 q1 q2 q3 ∧ weighted float32 q1 q2 q3 ≤ 1 := by
  unfold weighted
  rw [weight1, weight2, weight3]
  have a0 := float32.nonneg (show (0 : Rat) ≤ 8388608 / 33554432 * q1 by linarith)
  have b0 := float32.nonneg (show (0 : Rat) ≤ 11744051 / 33554432 * q2 by linarith)
  have c0 := float32.nonneg (show (0 : Rat) ≤ 13421773 / 33554432 * q3 by linarith)
  have a1 := float32.mono _ _ (show 8388608 / 33554432 * q1 ≤ (8388608 / 33554432 : Rat) by linarith)
  have b1 := float32.mono _ _ (show 11744051 / 33554432 * q2 ≤ (11744051 / 33554432 : Rat) by linarith)
  have c1 := float32.mono _ _ (show 13421773 / 33554432 * q3 ≤ (13421773 / 33554432 : Rat) by linarith)
  rw [kept1] at a1
  rw [kept2] at b1
  rw [kept3] at c1
  generalize float32.rnd (8388608 / 33554432 * q1) = a at *
  generalize float32.rnd (11744051 / 33554432 * q2) = b at *
  generalize float32.rnd (13421773 / 33554432 * q3) = c at *
  have d0 := float32.nonneg (show 0 ≤ a + b by linarith)
  have d1 := float32.mono _ _ (show a + b ≤ (20132659 / 33554432 : Rat) by linarith)
  rw [sum12] at d1
  generalize float32.rnd (a + b) = d at *
  have e1 := float32.mono _ _ (show d + c ≤ (33554433 / 33554432 : Rat) by linarith)
  rw [sum123] at e1
  exact ⟨float32.nonneg (by linarith), e1⟩

/-- All frames resolved. -/
theorem weighted_one : weighted float32 1 1 1 = 1 := by decide +kernel

theorem weighted_error {q1 q2 q3 x1 x2 x3 : Rat} (h1 : 0 ≤ q1 ∧ q1 ≤ 1) (h2 : 0 ≤ q2 ∧ q2 ≤ 1) (h3 : 0 ≤ q3 ∧ q3 ≤ 1)
    (e1 : |q1 - x1| ≤ 1 / 2 ^ 24) (e2 : |q2 - x2| ≤ 1 / 2 ^ 24) (e3 : |q3 - x3| ≤ 1 / 2 ^ 24) :
    |weighted float32 q1 q2 q3 - (1 / 4 * x1 + 7 / 20 * x2 + 2 / 5 * x3)| ≤ 8 / 2 ^ 24 := by
  unfold weighted
  rw [weight1, weight2, weight3]
  have unit : ∀ x : Rat, 0 ≤ x → x ≤ 1 → |float32.rnd x - x| ≤ 1 / 2 ^ 24 := by
    intro x h0 h1
    have := float32.abs_error h0 0 (by rw [zpow_zero]; exact h1) (by norm_num) (by norm_num) (by norm_num)
    rwa [zpow_zero] at this
  have a := unit (8388608 / 33554432 * q1) (by linarith) (by linarith)
  have b := unit (11744051 / 33554432 * q2) (by linarith) (by linarith)
  have c := unit (13421773 / 33554432 * q3) (by linarith) (by linarith)
  have a0 := float32.nonneg (show (0 : Rat) ≤ 8388608 / 33554432 * q1 by linarith)
  have b0 := float32.nonneg (show (0 : Rat) ≤ 11744051 / 33554432 * q2 by linarith)
  have c0 := float32.nonneg (show (0 : Rat) ≤ 13421773 / 33554432 * q3 by linarith)
  have a1 := float32.mono _ _ (show 8388608 / 33554432 * q1 ≤ (8388608 / 33554432 : Rat) by linarith)
  have b1 := float32.mono _ _ (show 11744051 / 33554432 * q2 ≤ (11744051 / 33554432 : Rat) by linarith)
  have c1 := float32.mono _ _ (show 13421773 / 33554432 * q3 ≤ (13421773 / 33554432 : Rat) by linarith)
  rw [kept1] at a1
  rw [kept2] at b1
  rw [kept3] at c1
  generalize float32.rnd (8388608 / 33554432 * q1) = a' at *
  generalize float32.rnd (11744051 / 33554432 * q2) = b' at *
  generalize float32.rnd (13421773 / 33554432 * q3) = c' at *
  have d := unit (a' + b') (by linarith) (by linarith)
  have d1 := float32.mono _ _ (show a' + b' ≤ (20132659 / 33554432 : Rat) by linarith)
  have d0 := float32.nonneg (show 0 ≤ a' + b' by linarith)
  rw [sum12] at d1
  generalize float32.rnd (a' + b') = d' at *
  have e := float32.abs_error (x := d' + c') (by linarith) 1 (by norm_num; linarith) (by norm_num) (by norm_num) (by norm_num)
  generalize float32.rnd (d' + c') = r at *
  obtain ⟨l1, u1⟩ := h1
  obtain ⟨l2, u2⟩ := h2
  obtain ⟨l3, u3⟩ := h3
  clear unit a0 b0 c0 a1 b1 c1 d0 d1
  rw [abs_le] at *
  norm_num at *
  constructor <;> linarith

theorem quality_unit {x : Rat} (h0 : 0 ≤ x) (h1 : x ≤ 1) : |float32.rnd x - x| ≤ 1 / 2 ^ 24 := by
  have := float32.abs_error h0 0 (by rw [zpow_zero]; exact h1) (by norm_num) (by norm_num) (by norm_num)
  rwa [zpow_zero] at this

/-- **C22.** The complex quality as a `float` (rounding to nearest) never fails and lies between 0 and 1, although the sum of the first
two weights is not a `float`. Up to 2^24 frames it is not more than 8 * 2^-24 from the exact value, and it is 1 if all frames of the
normalized stack trace are resolved (and there is one). -/
theorem C22_float_complex (s : GdbTrace) : ∃ q x n, qualityComplexFloat float32 s = .ok q ∧ qualityComplex s = .ok x ∧
    normalizeTrace s = .ok n ∧ 0 ≤ q ∧ q ≤ 1 ∧
    ((n.threads.flatMap GdbThread.frames).length ≤ 2 ^ 24 → |q - x| ≤ 8 / 2 ^ 24 ∧
      ((∃ t ∈ n.threads, t.frames ≠ []) → (∀ t ∈ n.threads, ∀ f ∈ t.frames, Resolved f) → q = 1)) := by
  unfold qualityComplexFloat qualityComplex
  rw [normalizeTrace_eq]
  simp only [Out.bind_ok]
  have x1 := (C22_simple (normTrace (rememberCrashTid s))).2
  have h1 := C22_float_simple float32 (normTrace (rememberCrashTid s))
  cases hf : findCrashThread s with
  | none =>
    refine ⟨_, _, _, rfl, rfl, rfl, h1.1, h1.2.1, fun a => ⟨?_, fun b c => (h1.2.2 a).2.2 ⟨b, c⟩⟩⟩
    have := quality_unit x1.1 x1.2.1
    rw [← (h1.2.2 a).1] at this
    refine this.trans (by norm_num)
  | some i =>
    dsimp only
    have hi := C21_in_trace s i hf
    have hmem : (normTrace (rememberCrashTid s)).threads.getD i {} ∈ (normTrace (rememberCrashTid s)).threads := by
      rw [List.getD_eq_getElem?_getD, List.getElem?_eq_getElem (by simpa [normTrace, remember_threads] using hi)]
      exact List.getElem_mem _
    generalize (normTrace (rememberCrashTid s)).threads.getD i {} = t at *
    have hr : removeFramesBelow 5 (nodes t.frames) = .ok ((nodes t.frames).take 5) := by
      have hw : ∀ (n : Nat) (l : List (Node GdbFrame)), (walk n l).1 = l.take n := by
        intro n
        induction n with
        | zero => intro l; rfl
        | succ n ih => intro l; cases l with
          | nil => rfl
          | cons a l => rw [walk, List.take_succ_cons, ih]
      unfold removeFramesBelow
      rw [if_pos (by decide), hw]
      rfl
    rw [hr]
    have h2 := C22_float_gdb_thread float32 t
    have h3 := C22_float_gdb_thread float32 { t with frames := ((nodes t.frames).take 5).map Node.val }
    have hw := weighted_range ⟨h1.1, h1.2.1⟩ ⟨h2.1, h2.2.1⟩ ⟨h3.1, h3.2.1⟩
    have x2 := (C22_gdb_thread t).2
    have x3 := (C22_gdb_thread { t with frames := ((nodes t.frames).take 5).map Node.val }).2
    refine ⟨_, _, _, rfl, rfl, rfl, hw.1, hw.2, ?_⟩
    intro a
    have hsub : ∀ f ∈ ((nodes t.frames).take 5).map Node.val, f ∈ t.frames := by
      intro f hf
      rw [List.mem_map] at hf
      obtain ⟨m, hm, rfl⟩ := hf
      have := List.mem_map_of_mem (f := Node.val) (List.mem_of_mem_take hm)
      rwa [nodes_val] at this
    have hlen : t.frames.length ≤ 2 ^ 24 := by
      refine le_trans ?_ a
      obtain ⟨l1, l2, e⟩ := List.append_of_mem hmem
      rw [e, List.flatMap_append, List.flatMap_cons]
      simp only [List.length_append]
      omega
    have hlen' : (((nodes t.frames).take 5).map Node.val).length ≤ 2 ^ 24 := by
      rw [List.length_map, List.length_take]
      omega
    constructor
    · apply weighted_error ⟨h1.1, h1.2.1⟩ ⟨h2.1, h2.2.1⟩ ⟨h3.1, h3.2.1⟩
      · rw [(h1.2.2 a).1]
        exact quality_unit x1.1 x1.2.1
      · rw [(h2.2.2 hlen).1]
        exact quality_unit x2.1 x2.2.1
      · rw [(h3.2.2 hlen').1]
        exact quality_unit x3.1 x3.2.1
    intro b c
    have e1 := (h1.2.2 a).2.2 ⟨b, c⟩
    have e2 := (h2.2.2 hlen).2.2 (c t hmem)
    have e3 := (h3.2.2 hlen').2.2 (fun f hf => c t hmem f (hsub f hf))
    rw [e1, e2, e3]
    exact weighted_one

/-- Non-vacuity: two of three frames are resolved. -/
example : threadQualityFloat float32 { frames := [{ functionName := some c!"f", sourceFile := some c!"a.c" }, {}, { signalHandlerCalled := true }] } =
    11184811 / 16777216 := by decide +kernel

end Satyr.Crash
