import Verif.Normalize.Model
import Verif.Threads.Props
/-!
# C62: removal of `main`
-/
namespace Satyr.Normalize
open Satyr.CStr Satyr.Threads

theorem removeMain_eq (rest : List (Node GdbFrame)) : ∀ pre, WF (pre ++ rest) →
    removeMain rest (pre ++ rest) = pre ++ rest.filter fun n => decide (n.val.functionName ≠ some c!"main") := by
  induction rest with
  | nil => intro pre _; rfl
  | cons n rest ih =>
    intro pre h
    have hskip : removeMain rest (pre ++ n :: rest) =
        pre ++ n :: rest.filter fun n => decide (n.val.functionName ≠ some c!"main") := by
      have := ih (pre ++ [n]) (by simpa using h)
      simpa using this
    rw [removeMain.eq_def]
    dsimp only
    split
    · next f hf =>
      split
      · next hm =>
        have hmain : n.val.functionName = some c!"main" := by rw [hf, strcmp_eq_zero.1 hm]
        rw [removeFrame_append n.id pre n rest rfl h.pre_ne.1, List.filter_cons_of_neg (by simp [hmain])]
        exact ih pre (h.sublist (by simp))
      · next hm =>
        have hmain : n.val.functionName ≠ some c!"main" := by
          rw [hf]; intro h'; exact hm (by rw [Option.some.inj h', strcmp_self])
        rw [hskip, List.filter_cons_of_pos (by simp only [decide_eq_true_iff]; exact hmain)]
    · next hf =>
      rw [hskip, List.filter_cons_of_pos (by simp [hf])]

/-- C62: `sr_gdb_normalize_optimize_thread` removes exactly the frames of `main` and keeps the others unchanged and in
order. -/
theorem C62_main (t : List (Node GdbFrame)) (h : WF t) :
    removeMain t t = t.filter fun n => decide (n.val.functionName ≠ some c!"main") :=
  removeMain_eq t [] h

/-- C62: a second run changes nothing. -/
theorem C62_idempotent (t : List (Node GdbFrame)) (h : WF t) :
    removeMain (removeMain t t) (removeMain t t) = removeMain t t := by
  have hf : WF (t.filter fun n => decide (n.val.functionName ≠ some c!"main")) := h.sublist List.filter_sublist
  rw [C62_main t h, C62_main _ hf, List.filter_filter]
  simp only [Bool.and_self]

example : removeMain [⟨0, { functionName := some c!"f" }⟩, ⟨1, { functionName := some c!"main" }⟩, ⟨2, {}⟩]
    [⟨0, { functionName := some c!"f" }⟩, ⟨1, { functionName := some c!"main" }⟩, ⟨2, {}⟩] =
    [⟨0, { functionName := some c!"f" }⟩, ⟨2, {}⟩] := by decide +kernel

end Satyr.Normalize
