import Verif.Frames.Traces
import Verif.Frames.CmpProps
/-!
# Comparison of threads (C60)
-/
namespace Satyr.Frames
open Satyr.CStr Satyr.Normalize

/-- The loop over two lists of `thread_cmp_dont_compare_number` (lib/gdb_stacktrace.c:169-189), `sr_gdb_thread_cmp`
(lib/gdb_thread.c:127-145), `sr_core_thread_cmp` (lib/core_thread.c:112-134) and `sr_java_stacktrace_cmp`
(lib/java_stacktrace.c:109-133). -/
def listCmp {F : Type} (cmp : F → F → Int) : List F → List F → Int
  | [], [] => 0
  | _ :: _, [] => 1
  | [], _ :: _ => -1
  | f :: fs, g :: gs =>
    let frames := cmp f g
    if frames ≠ 0 then frames else listCmp cmp fs gs

/-- `sr_gdb_thread_cmp` (lib/gdb_thread.c:120-146). -/
def gdbThreadCmp (t u : GdbThread) : Int :=
  orElse0 (diff32 t.number u.number) (listCmp (gdbCmp true) t.frames u.frames)

/-- `sr_core_thread_cmp` (lib/core_thread.c:112-134). -/
def coreThreadCmp (t u : CoreThread) : Int := listCmp coreCmp t.frames u.frames

/-- The end of `sr_java_thread_cmp` (lib/java_thread.c:127-137): only the first frames are compared. -/
def firstCmp {F : Type} (cmp : F → F → Int) : List F → List F → Int
  | [], [] => 0
  | _ :: _, [] => 1
  | [], _ :: _ => -1
  | f :: _, g :: _ => cmp f g

/-- `sr_java_thread_cmp` (lib/java_thread.c:119-138). -/
def javaThreadCmp (t u : JavaThread) : Int :=
  orElse0 (strcmp0 t.name u.name) (firstCmp javaCmp t.frames u.frames)

/-- `sr_java_stacktrace_cmp` (lib/java_stacktrace.c:109-133). -/
def javaTraceCmp (s t : JavaTrace) : Int := listCmp javaThreadCmp s.threads t.threads

/-- Comparing lists lexicographically is a total order if comparing the elements is one. -/
theorem OrderOn.list {F K : Type} {P : F → Prop} {c : F → F → Int} {key : F → K} (h : OrderOn P c key) :
    OrderOn (fun fs : List F => ∀ f ∈ fs, P f) (listCmp c) (fun fs => fs.map key) where
  antisymm a := by
    induction a with
    | nil => intro b _ _; cases b <;> simp [listCmp]
    | cons f fs ih =>
      intro b ha hb
      cases b with
      | nil => simp [listCmp]
      | cons g gs =>
        have hf := ha f (by simp)
        have hg := hb g (by simp)
        have ha' := h.1 f g hf hg
        have hz : c g f = 0 ↔ c f g = 0 := by rw [h.3 f g hf hg, h.3 g f hg hf]; exact eq_comm
        simp only [listCmp]
        by_cases h0 : c f g = 0
        · rw [if_neg (by simp [hz, h0]), if_neg (by simp [h0])]
          exact ih gs (fun x hx => ha x (by simp [hx])) (fun x hx => hb x (by simp [hx]))
        · rw [if_pos (by simp [hz, h0]), if_pos (by simp [h0])]; exact ha'
  trans a := by
    induction a with
    | nil => intro b e _ _ _ _ _; cases e <;> simp [listCmp]
    | cons f fs ih =>
      intro b e ha hb he h1 h2
      cases b with
      | nil => simp [listCmp] at h1
      | cons g gs =>
        cases e with
        | nil => simp [listCmp] at h2
        | cons k ks =>
          have hf := ha f (by simp)
          have hg := hb g (by simp)
          have hk := he k (by simp)
          simp only [listCmp] at h1 h2 ⊢
          have l1 : c f g ≤ 0 := by split at h1 <;> omega
          have l2 : c g k ≤ 0 := by split at h2 <;> omega
          have l3 := h.2 f g k hf hg hk l1 l2
          by_cases h0 : c f k = 0
          · rw [if_neg (by simp [h0])]
            have h0' : c k f ≤ 0 := by
              have : c k f = 0 := by rw [h.3 k f hk hf]; exact ((h.3 f k hf hk).1 h0).symm
              omega
            have m2 := (h.le_swap hg hk).1 (h.2 k f g hk hf hg h0' l1)
            have m4 := (h.le_swap hf hg).1 (h.2 g k f hg hk hf l2 h0')
            rw [if_neg (by omega)] at h1 h2
            exact ih gs ks (fun x hx => ha x (by simp [hx])) (fun x hx => hb x (by simp [hx]))
              (fun x hx => he x (by simp [hx])) h1 h2
          · rw [if_pos h0]; exact l3
  zero_iff a := by
    induction a with
    | nil => intro b _ _; cases b <;> simp [listCmp]
    | cons f fs ih =>
      intro b ha hb
      cases b with
      | nil => simp [listCmp]
      | cons g gs =>
        have hf := ha f (by simp)
        have hg := hb g (by simp)
        simp only [listCmp, List.map_cons, List.cons.injEq]
        rw [← h.3 f g hf hg, ← ih gs (fun x hx => ha x (by simp [hx])) (fun x hx => hb x (by simp [hx]))]
        split
        · next h0 => constructor
                     · intro h'; exact absurd h' h0
                     · rintro ⟨h', _⟩; exact absurd h' h0
        · next h0 => rw [not_not] at h0; simp [h0]

/-- Comparing first elements only is a total order on the first elements. -/
theorem OrderOn.first {F K : Type} {P : F → Prop} {c : F → F → Int} {key : F → K} (h : OrderOn P c key) :
    OrderOn (fun fs : List F => ∀ f ∈ fs, P f) (firstCmp c) (fun fs => fs.head?.map key) where
  antisymm a b ha hb := by
    cases a <;> cases b <;> simp only [firstCmp] <;> try rfl
    exact h.1 _ _ (ha _ (by simp)) (hb _ (by simp))
  trans a b d ha hb hd h1 h2 := by
    cases a <;> cases b <;> cases d <;> simp only [firstCmp] at * <;> try omega
    exact h.2 _ _ _ (ha _ (by simp)) (hb _ (by simp)) (hd _ (by simp)) h1 h2
  zero_iff a b ha hb := by
    cases a <;> cases b <;> simp [firstCmp]
    exact h.3 _ _ (ha _ (by simp)) (hb _ (by simp))

/-! ## C60 -/

/-- What `sr_gdb_frame_cmp` compares. -/
def gdbKey (f : GdbFrame) : Option (Option Str × Option Str × Option Str × Nat × Option Str × Nat) :=
  if f.signalHandlerCalled then none
  else some (f.functionName, f.functionType, f.sourceFile, f.sourceLine, f.libraryName, f.number)

/-- C60 for GDB threads whose thread, line and frame numbers are below 2^31: a total order, 0 exactly for threads with
the same number and pairwise the same frames (all attributes but the address; signal handler frames are all the
same). -/
theorem C60_gdb_partial :
    OrderOn (fun t : GdbThread => Small t.number ∧ ∀ f ∈ t.frames, Small f.sourceLine ∧ Small f.number) gdbThreadCmp
      (fun t => (t.number, t.frames.map gdbKey)) := by
  have hf : OrderOn (fun f : GdbFrame => Small f.sourceLine ∧ Small f.number) (gdbCmp true) gdbKey := by
    refine (C23_gdb_partial true).congrKey fun a b => ?_
    unfold gdbKey
    by_cases h1 : a.signalHandlerCalled = true <;> by_cases h2 : b.signalHandlerCalled = true <;> simp [h1, h2]
  exact (order_num _ (fun _ h => h.1)).lex (hf.list.comap GdbThread.frames (fun _ h => h.2))

/-- C60 for core threads whose build id offsets are below 2^31: a total order, 0 exactly for threads with pairwise the
same frames (build id, offset, function, file and fingerprint). The thread id is not compared. -/
theorem C60_core_partial :
    OrderOn (fun t : CoreThread => ∀ f ∈ t.frames, Small f.buildIdOffset) coreThreadCmp
      (fun t => t.frames.map fun f => (f.buildId, f.buildIdOffset, f.functionName, f.fileName, f.fingerprint)) :=
  (C23_core_partial.congrKey (by simp)).list.comap CoreThread.frames (fun _ h => h)

/-- What `sr_java_frame_cmp` compares. -/
def javaKey (f : JavaFrame) : Bool × Option Str × Option (Option Str × Option Str × Bool × Nat) :=
  (f.isException, f.name, if f.isException then none else some (f.classPath, f.fileName, f.isNative, f.fileLine))

/-- C60 for Java threads whose line numbers are below 2^31: a total preorder, but only the name and the first frame are
compared. -/
theorem C60_java_partial :
    OrderOn (fun t : JavaThread => ∀ f ∈ t.frames, Small f.fileLine) javaThreadCmp
      (fun t => (t.name, t.frames.head?.map javaKey)) :=
  (order_str _).lex (C23_java_partial.first.comap JavaThread.frames (fun _ h => h))

/-- C60 for Java stack traces: a total preorder on the names and first frames of the threads. -/
theorem C60_java_stacktrace_partial :
    OrderOn (fun s : JavaTrace => ∀ t ∈ s.threads, ∀ f ∈ t.frames, Small f.fileLine) javaTraceCmp
      (fun s => s.threads.map fun t => (t.name, t.frames.head?.map javaKey)) :=
  C60_java_partial.list.comap JavaTrace.threads (fun _ h => h)

/-- C60 fails for Java threads: two threads with the same name compare equal although one has a second frame the other
lacks. -/
theorem C60_not_java : ∃ t u : JavaThread, javaThreadCmp t u = 0 ∧ t.name = u.name ∧
    t.frames.map javaKey ≠ u.frames.map javaKey :=
  ⟨{ name := some c!"main", frames := [{ name := some c!"a.b" }] },
    { name := some c!"main", frames := [{ name := some c!"a.b" }, { name := some c!"c.d" }] },
    by decide +kernel, rfl, fun h => by simpa using congrArg List.length h⟩

/-- C60 fails for GDB threads with arbitrary `uint32_t` numbers: each of two threads is less than the other. -/
theorem C60_not_gdb : ∃ t u : GdbThread, t.number < 2 ^ 32 ∧ u.number < 2 ^ 32 ∧ gdbThreadCmp t u < 0 ∧ gdbThreadCmp u t < 0 :=
  ⟨{ number := 0 }, { number := 2147483648 }, by decide +kernel⟩

example : gdbThreadCmp { number := 1, frames := [{ functionName := some c!"f" }] }
    { number := 1, frames := [{ functionName := some c!"f" }, {}] } = -1 := by decide +kernel
example : coreThreadCmp { frames := [{ buildIdOffset := 3 }] } { frames := [{ buildIdOffset := 5 }] } = -2 := by decide +kernel

end Satyr.Frames
