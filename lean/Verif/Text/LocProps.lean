import Verif.CStr.Spec
import Verif.Text.LocModel
/-!
# C28: the order of locations is the order of places in the text
-/
namespace Satyr.CStr

/-- C28: the location of a place compares as not later than that of a place after it, and equal only if the places are the same. -/
theorem C28_order (p q : Str) : (locOf p).cmp (locOf (p ++ q)) ≤ 0 ∧ ((locOf p).cmp (locOf (p ++ q)) = 0 ↔ q = []) := by
  unfold Loc.cmp locOf
  simp only [List.count_append, List.reverse_append]
  by_cases hq : '\n' ∈ q
  · have : 0 < q.count '\n' := List.count_pos_iff.2 hq
    rw [if_pos (by omega)]
    refine ⟨by omega, ⟨fun h => by omega, ?_⟩⟩
    rintro rfl
    cases hq
  · rw [List.count_eq_zero.2 hq, if_neg (by omega)]
    rw [List.takeWhile_append_of_pos (by
      intro c hc
      simp
      rintro rfl
      exact hq (by simpa using hc))]
    simp only [List.length_append, List.length_reverse]
    refine ⟨by omega, ⟨fun h => List.length_eq_zero_iff.1 (by omega), ?_⟩⟩
    rintro rfl
    simp

/-- C28: of two places in one text, the location of the first compares as less. -/
theorem C28_order_lt (p q : Str) (c : Char) : (locOf p).cmp (locOf (p ++ c :: q)) < 0 := by
  have h := C28_order p (c :: q)
  have : (locOf p).cmp (locOf (p ++ c :: q)) ≠ 0 := fun e => by simpa using h.2.1 e
  omega

example : (locOf c!"ab\nc").cmp (locOf c!"ab\ncd\n") = -1 := by decide

end Satyr.CStr
