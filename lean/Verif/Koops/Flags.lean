import Verif.CStr.Idx
import Verif.Frames.Traces
/-!
# The taint flags of a kernel oops (lib/koops_stacktrace.c:30-55) and their parser
-/
namespace Satyr.Koops
open Satyr.CStr Satyr.Frames

/-- `struct sr_taint_flag` (lib/internal_utils.h:62-67): the member offset is represented by reading and setting the member. -/
structure Flag where
  letter : Char
  name : Str
  get : Taints → Bool
  set : Taints → Taints

/-- `sr_flags` (lib/koops_stacktrace.c:36-54) without the sentinel. -/
def flags : List Flag :=
  [⟨'P', c!"module_proprietary", Taints.moduleProprietary, fun t => { t with moduleProprietary := true }⟩,
   ⟨'F', c!"forced_module", Taints.forcedModule, fun t => { t with forcedModule := true }⟩,
   ⟨'S', c!"smp_unsafe", Taints.smpUnsafe, fun t => { t with smpUnsafe := true }⟩,
   ⟨'R', c!"forced_removal", Taints.forcedRemoval, fun t => { t with forcedRemoval := true }⟩,
   ⟨'M', c!"mce", Taints.mce, fun t => { t with mce := true }⟩,
   ⟨'B', c!"page_release", Taints.pageRelease, fun t => { t with pageRelease := true }⟩,
   ⟨'U', c!"userspace", Taints.userspace, fun t => { t with userspace := true }⟩,
   ⟨'D', c!"died_recently", Taints.diedRecently, fun t => { t with diedRecently := true }⟩,
   ⟨'A', c!"acpi_overridden", Taints.acpiOverridden, fun t => { t with acpiOverridden := true }⟩,
   ⟨'W', c!"warning", Taints.warning, fun t => { t with warning := true }⟩,
   ⟨'C', c!"staging_driver", Taints.stagingDriver, fun t => { t with stagingDriver := true }⟩,
   ⟨'I', c!"firmware_workaround", Taints.firmwareWorkaround, fun t => { t with firmwareWorkaround := true }⟩,
   ⟨'O', c!"module_out_of_tree", Taints.moduleOutOfTree, fun t => { t with moduleOutOfTree := true }⟩,
   ⟨'E', c!"unsigned_module", Taints.unsignedModule, fun t => { t with unsignedModule := true }⟩,
   ⟨'L', c!"soft_lockup", Taints.softLockup, fun t => { t with softLockup := true }⟩,
   ⟨'K', c!"live_patched", Taints.livePatched, fun t => { t with livePatched := true }⟩]

/-- The search for a flag by letter (lib/koops_stacktrace.c:209-217). -/
def setLetter (c : Char) (t : Taints) : Taints :=
  match flags.find? fun f => f.letter == c with
  | some f => f.set t
  | none => t

/-- The search for a flag by name (lib/koops_stacktrace.c:673-681). -/
def setName (s : Str) (t : Taints) : Taints :=
  match flags.find? fun f => strcmp f.name s == 0 with
  | some f => f.set t
  | none => t

/-- The loop of `parse_taint_flags` (lib/koops_stacktrace.c:204-223); it ends at the terminator at the latest. -/
def letterLoop : Str → Taints → Taints
  | [], t => t
  | c :: s, t =>
    if 'A' ≤ c ∧ c ≤ 'Z' then letterLoop s (setLetter c t)
    else if c ≠ ' ' then t
    else letterLoop s t

/-- `parse_taint_flags` (lib/koops_stacktrace.c:194-226). -/
def parseTaintFlags (input : Str) (t : Taints) : Taints :=
  match strstrI c!"Tainted: " input with
  | none => t
  | some k => letterLoop (input.drop (k + 9)) t

/-! ## Properties of the table -/

theorem flags_get_set : ∀ f ∈ flags, ∀ g ∈ flags, ∀ t, f.get (g.set t) = (f.name == g.name || f.get t) := by
  simp only [flags, List.forall_mem_cons, List.not_mem_nil, false_implies, implies_true, and_true]
  refine ⟨?_, ?_, ?_, ?_, ?_, ?_, ?_, ?_, ?_, ?_, ?_, ?_, ?_, ?_, ?_, ?_⟩ <;>
    refine ⟨?_, ?_, ?_, ?_, ?_, ?_, ?_, ?_, ?_, ?_, ?_, ?_, ?_, ?_, ?_, ?_⟩ <;> intro t <;> rfl

theorem flags_ext (t u : Taints) (h : ∀ f ∈ flags, f.get t = f.get u) : t = u := by
  simp only [flags, List.forall_mem_cons, List.not_mem_nil, false_implies, implies_true, and_true] at h
  obtain ⟨h1, h2, h3, h4, h5, h6, h7, h8, h9, h10, h11, h12, h13, h14, h15, h16⟩ := h
  cases t; cases u
  simp_all

theorem flags_names : (flags.map Flag.name).Nodup := by decide +kernel

theorem flags_letters : (flags.map Flag.letter).Nodup := by decide +kernel

theorem flag_of_name : ∀ f ∈ flags, ∀ g ∈ flags, f.name = g.name → f.letter = g.letter := by
  decide +kernel

theorem flag_of_letter : ∀ f ∈ flags, ∀ g ∈ flags, f.letter = g.letter → f.name = g.name := by
  decide +kernel

theorem get_setName {f : Flag} (hf : f ∈ flags) (s : Str) (t : Taints) :
    f.get (setName s t) = (f.name == s || f.get t) := by
  unfold setName
  cases h : flags.find? fun g => strcmp g.name s == 0 with
  | none =>
    have := List.find?_eq_none.1 h f hf
    rw [beq_iff_eq, strcmp_eq_zero] at this
    simp [this]
  | some g =>
    have hg := List.mem_of_find?_eq_some h
    have hs := List.find?_some h
    rw [beq_iff_eq, strcmp_eq_zero] at hs
    subst hs
    exact flags_get_set f hf g hg t

theorem get_setLetter {f : Flag} (hf : f ∈ flags) (c : Char) (t : Taints) :
    f.get (setLetter c t) = (f.letter == c || f.get t) := by
  unfold setLetter
  cases h : flags.find? fun g => g.letter == c with
  | none =>
    have := List.find?_eq_none.1 h f hf
    rw [beq_iff_eq] at this
    simp [this]
  | some g =>
    have hg := List.mem_of_find?_eq_some h
    have hs := List.find?_some h
    rw [beq_iff_eq] at hs
    subst hs
    rw [flags_get_set f hf g hg t]
    congr 1
    rw [Bool.eq_iff_iff, beq_iff_eq, beq_iff_eq]
    exact ⟨flag_of_name f hf g hg, flag_of_letter f hf g hg⟩

end Satyr.Koops
