import Verif.Metrics.Triangle
import Verif.Generic.Survive
/-!
# C139 for the frames of each type

`sr_distance` compares frames with `sr_frame_cmp_distance`, which is an equivalence on the frames about which enough is known.
-/
namespace Satyr.Generic
open Satyr.CStr Satyr.Frames Satyr.Report
open Satyr.Levenshtein (pull Equiv')
open Satyr.Distances (DistType)
open Satyr.Metrics (factors)

/-- Enough is known about the frame: the function of a core frame, function and library of a GDB frame. Lines of JavaScript frames are 32 bits
wide. -/
def Known : Frame → Prop
  | .core f _ => f.functionName ≠ none
  | .gdb f _ => f.functionName ≠ some c!"??" ∧ f.libraryName ≠ none
  | .js f _ => f.fileLine < 2 ^ 32
  | _ => True

theorem sameFrame_iff (f g : Frame) : sameFrame f g = true ↔ f.type = g.type ∧ distanceCmp f g = 0 := by
  unfold sameFrame
  rw [decide_eq_true_eq]
  constructor
  · intro h
    by_cases e : f.type = g.type
    · rw [(C114_cmp_distance f g).1 e] at h
      injection h with h
      exact ⟨e, h⟩
    · obtain ⟨c, h1, h2⟩ := (C114_cmp_distance f g).2 e
      rw [h1] at h
      injection h with h
      exact absurd h h2
  · rintro ⟨e, h⟩
    rw [(C114_cmp_distance f g).1 e, h]

theorem known_equiv : Equiv' (pull sameFrame (Subtype.val : { f : Frame // Known f } → Frame)) := by
  refine ⟨?_, ?_, ?_⟩
  · rintro ⟨f, hf⟩
    refine (sameFrame_iff f f).2 ⟨rfl, ?_⟩
    cases f with
    | core f l => exact C24_core_partial.refl ⟨f, hf⟩
    | python f l => exact C24_python.refl f
    | koops f l => exact C24_koops.refl f
    | java f l => exact C24_java.refl f
    | gdb f l => exact C24_gdb_partial.refl ⟨f, hf⟩
    | ruby f l => exact C24_ruby.refl f
    | js f l => exact C24_js.refl ⟨f, hf⟩
  · rintro ⟨f, hf⟩ ⟨g, hg⟩ h
    obtain ⟨e, h⟩ := (sameFrame_iff f g).1 h
    refine (sameFrame_iff g f).2 ⟨e.symm, ?_⟩
    cases f <;> cases g <;> first | contradiction | skip
    · exact C24_core_partial.symm (x := ⟨_, hf⟩) (y := ⟨_, hg⟩) h
    · exact C24_python.symm h
    · exact C24_koops.symm h
    · exact C24_java.symm h
    · exact C24_gdb_partial.symm (x := ⟨_, hf⟩) (y := ⟨_, hg⟩) h
    · exact C24_ruby.symm h
    · exact C24_js.symm (x := ⟨_, hf⟩) (y := ⟨_, hg⟩) h
  · rintro ⟨f, hf⟩ ⟨g, hg⟩ ⟨i, hi⟩ h h'
    obtain ⟨e, h⟩ := (sameFrame_iff f g).1 h
    obtain ⟨e', h'⟩ := (sameFrame_iff g i).1 h'
    refine (sameFrame_iff f i).2 ⟨e.trans e', ?_⟩
    cases f <;> cases g <;> first | contradiction | skip
    all_goals cases i <;> first | contradiction | skip
    · exact C24_core_partial.trans (x := ⟨_, hf⟩) (y := ⟨_, hg⟩) (z := ⟨_, hi⟩) h h'
    · exact C24_python.trans h h'
    · exact C24_koops.trans h h'
    · exact C24_java.trans h h'
    · exact C24_gdb_partial.trans (x := ⟨_, hf⟩) (y := ⟨_, hg⟩) (z := ⟨_, hi⟩) h h'
    · exact C24_ruby.trans h h'
    · exact C24_js.trans (x := ⟨_, hf⟩) (y := ⟨_, hg⟩) (z := ⟨_, hi⟩) h h'

/-- The thread as a list of frames about which enough is known. -/
def asKnown (t : Thread) (h : ∀ f ∈ allFrames t, Known f) : Metrics.Thread ReportType { f : Frame // Known f } :=
  ⟨t.type, (allFrames t).attachWith Known h⟩

theorem threadDistance_known (ty : Option DistType) (t u : Thread) (ht : ∀ f ∈ allFrames t, Known f) (hu : ∀ f ∈ allFrames u, Known f) :
    threadDistance ty t u = Metrics.distance (pull sameFrame Subtype.val) ty (asKnown t ht) (asKnown u hu) := by
  unfold threadDistance asKnown
  rw [← distance_map]
  simp

/-- C139 for all threads, whatever their types, with frames about which enough is known. -/
theorem C139_threads_partial {ty : DistType} {k : Rat} (hk : (ty, k) ∈ factors) (t u v : Thread) (ht : ∀ f ∈ allFrames t, Known f)
    (hu : ∀ f ∈ allFrames u, Known f) (hv : ∀ f ∈ allFrames v, Known f) :
    ∃ x y z, threadDistance (some ty) t u = .ok x ∧ threadDistance (some ty) u v = .ok y ∧ threadDistance (some ty) t v = .ok z ∧
      z ≤ k * (x + y) ∧
      (ty = .levenshtein → (allFrames u).length ≤ max (allFrames t).length (allFrames v).length → z ≤ x + y) ∧
      (x = 0 → z = y) := by
  rw [threadDistance_known _ t u ht hu, threadDistance_known _ u v hu hv, threadDistance_known _ t v ht hv]
  obtain ⟨x, y, z, h1, h2, h3, h4⟩ := Metrics.C139_triangle known_equiv hk (asKnown t ht) (asKnown u hu) (asKnown v hv)
  refine ⟨x, y, z, h1, h2, h3, h4, ?_, ?_⟩
  · rintro rfl hl
    obtain ⟨x', y', z', k1, k2, k3, k4⟩ := Metrics.C139_short_between known_equiv (asKnown t ht) (asKnown u hu) (asKnown v hv)
      (by simpa [asKnown] using hl)
    rw [h1] at k1
    rw [h2] at k2
    rw [h3] at k3
    injection k1 with k1
    injection k2 with k2
    injection k3 with k3
    subst k1 k2 k3
    exact k4
  · rintro rfl
    have := Metrics.C139_interchangeable known_equiv hk (asKnown t ht) (asKnown u hu) (asKnown v hv) h1
    rw [h2, h3] at this
    injection this

/-! ### Non-vacuity, and where it fails -/

/-- Thread of one GDB frame. -/
abbrev gdbThread (f : Normalize.GdbFrame) : Thread := .gdb { frames := [f] } []

/-- Thread of one core frame. -/
abbrev coreThread (f : Normalize.CoreFrame) : Thread := .core { frames := [f] } []

/-- C139 fails for GDB threads if the library of a frame is not known: with every metric, two threads at distance 0 from the same thread may be at
distance 1 from each other. -/
theorem C139_not_gdb (p : DistType × Rat) (hp : p ∈ factors) : ∃ t u v : Thread, threadDistance (some p.1) t u = .ok 0 ∧ threadDistance (some p.1) u v = .ok 0 ∧
    threadDistance (some p.1) t v = .ok 1 := by
  refine ⟨gdbThread { functionName := some c!"f", libraryName := some c!"a" }, gdbThread { functionName := some c!"f" },
    gdbThread { functionName := some c!"f", libraryName := some c!"b" }, ?_⟩
  simp only [factors, List.mem_cons, List.not_mem_nil, or_false] at hp
  rcases hp with rfl | rfl | rfl <;> decide +kernel

/-- C139 fails for core threads if the function of a frame is not known. -/
theorem C139_not_core (p : DistType × Rat) (hp : p ∈ factors) : ∃ t u v : Thread, threadDistance (some p.1) t u = .ok 0 ∧ threadDistance (some p.1) u v = .ok 0 ∧
    threadDistance (some p.1) t v = .ok 1 := by
  refine ⟨coreThread { functionName := some c!"f" }, coreThread {}, coreThread { functionName := some c!"g" }, ?_⟩
  simp only [factors, List.mem_cons, List.not_mem_nil, or_false] at hp
  rcases hp with rfl | rfl | rfl <;> decide +kernel

/-- Core thread of functions with these names. -/
abbrev coreNamed (l : List Str) : Thread := .core { frames := l.map fun n => { functionName := some n } } []

example : (∀ f ∈ allFrames (coreNamed [c!"f", c!"g"]), Known f) ∧ (∀ f ∈ allFrames (coreNamed [c!"g", c!"h"]), Known f) :=
  ⟨by simp [allFrames, frameTails, Known], by simp [allFrames, frameTails, Known]⟩
example : threadDistance (some .levenshtein) (coreNamed [c!"f", c!"g"]) (coreNamed [c!"g", c!"h"]) = .ok 1 ∧
    threadDistance (some .levenshtein) (coreNamed [c!"f", c!"g"]) (coreNamed [c!"f", c!"g", c!"h"]) = .ok (1 / 3) ∧
    threadDistance (some .levenshtein) (coreNamed [c!"f", c!"g", c!"h"]) (coreNamed [c!"g", c!"h"]) = .ok (1 / 3) := by decide +kernel
end Satyr.Generic
