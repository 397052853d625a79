import Verif.Text.RubyLoc
import Verif.Text.Ruby
/-!
# Ruby: reading with and without locations
-/
namespace Satyr.Text.Ruby
open Satyr.CStr Satyr.Frames

theorem framesLoopL_eq : ∀ (fuel : Nat) (s : Str) (loc : Loc) (acc : List RubyFrame), forget id (framesLoopL fuel s loc acc) = framesLoop fuel s acc
  | 0, _, _, _ => rfl
  | fuel + 1, s, loc, acc => by
    rw [framesLoopL, framesLoop]
    split
    · rfl
    dsimp only
    split
    · rfl
    rw [← parseFrameL_eq (skipString s c!"\tfrom ").2 (right loc (skipString s c!"\tfrom ").1)]
    rcases parseFrameL (skipString s c!"\tfrom ").2 (right loc (skipString s c!"\tfrom ").1) with (e | ⟨f, t, loc'⟩) | _ | _
    · rfl
    · show forget _ (Out.bind (Out.ok _) _) = Out.bind (Out.ok (some (f, t))) _
      rw [show ∀ (x : Option (RubyFrame × Str)) (g : Option (RubyFrame × Str) → Out (Option (List RubyFrame × Str))), Out.bind (.ok x) g = g x from fun _ _ => rfl]
      show forget _ (Out.bind (skipChar t '\n') _) = Out.bind (skipChar t '\n') _
      rcases skipChar t '\n' with ⟨nl, u⟩ | _ | _
      · show forget _ (if _ then _ else _) = if _ then _ else _
        split
        · rfl
        · exact framesLoopL_eq fuel u _ _
      · rfl
      · rfl
    · rfl
    · rfl

theorem parseL_eq (inp : Str) (loc : Loc) : forget id (parseL inp loc) = parse inp := by
  unfold parseL headL parse
  rw [← parseFrameL_eq inp loc]
  rcases parseFrameL inp loc with (e | ⟨f, s, loc'⟩) | _ | _
  · rfl
  · show forget _ (Out.bind (if _ then _ else _) _) = Out.bind (Out.ok (some (f, s))) _
    rw [show ∀ (x : Option (RubyFrame × Str)) (g : Option (RubyFrame × Str) → Out (Option (RubyTrace × Str))), Out.bind (.ok x) g = g x from fun _ _ => rfl]
    show forget _ (Out.bind (if _ then _ else _) _) = if _ then _ else _
    split
    · rfl
    show forget _ (Out.bind (Out.bind (parseCharCspan (skipString s c!": ").2 c!"\t") _) _) = Out.bind (parseCharCspan (skipString s c!": ").2 c!"\t") _
    rcases parseCharCspan (skipString s c!": ").2 c!"\t" with ⟨m | m, t⟩ | _ | _
    · rfl
    · show forget _ (Out.bind (Out.bind (exceptionClassL m (right (right loc' 2) m.length)) _) _) = Out.bind (exceptionClass m) _
      rw [← exceptionClassL_eq m (right (right loc' 2) m.length)]
      rcases exceptionClassL m (right (right loc' 2) m.length) with (e | name) | _ | _
      · rfl
      · show forget _ (Out.bind (framesLoopL (t.length + 1) t ⟨(right loc' 2).line + 1, 0⟩ [f]) _) = Out.bind (framesLoop (t.length + 1) t [f]) _
        rw [← framesLoopL_eq (t.length + 1) t ⟨(right loc' 2).line + 1, 0⟩ [f]]
        rcases framesLoopL (t.length + 1) t ⟨(right loc' 2).line + 1, 0⟩ [f] with (e | ⟨a, b⟩) | _ | _ <;> rfl
      · rfl
      · rfl
    · rfl
    · rfl
  · rfl
  · rfl

/-- Reading with locations never fails in another way. -/
theorem parseL_fine (inp : Str) (loc : Loc) : ∃ v, parseL inp loc = .ok v ∧ parse inp = .ok v.getRight? := by
  have h := parseL_eq inp loc
  obtain ⟨r, hr⟩ := C56_ruby_trace inp
  rw [hr] at h
  rcases hp : parseL inp loc with v | _ | _ <;> rw [hp] at h
  · refine ⟨v, rfl, ?_⟩
    rw [hr, ← h]
    simp [forget, Out.bind]
  · cases h
  · cases h

end Satyr.Text.Ruby
