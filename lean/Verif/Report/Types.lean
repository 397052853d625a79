import Verif.Report.Model
/-!
# C49: names of report types
-/
namespace Satyr.Report
open Satyr.CStr

/-- C49: the name of a type is read back as that type. -/
theorem C49_round_trip (t : ReportType) : typeFromString (some (typeToString t.code)) = t.code := by
  cases t <;> decide +kernel

/-- C49: different types have different names. -/
theorem C49_names_differ (t u : ReportType) (h : typeToString t.code = typeToString u.code) : t = u := by
  have : t.code = u.code := by rw [← C49_round_trip t, ← C49_round_trip u, h]
  cases t <;> cases u <;> first | rfl | exact absurd this (by decide)

theorem strcmp0_some_eq_zero {a : Str} {b : Option Str} : strcmp0 (some a) b = 0 ↔ b = some a := by
  cases b with
  | none => simp [strcmp0]
  | some b => rw [strcmp0, strcmp_eq_zero, Option.some.injEq]; exact eq_comm

/-- C49: a string is read as a type other than INVALID only if it is the name of that type; all other strings, and NULL, are
read as INVALID. -/
theorem C49_from_string (s : Option Str) :
    (∃ t : ReportType, s = some (typeToString t.code) ∧ typeFromString s = t.code) ∨
    ((∀ t : ReportType, s ≠ some (typeToString t.code)) ∧ typeFromString s = ReportType.code .invalid) := by
  by_cases h : ∃ t : ReportType, s = some (typeToString t.code)
  · obtain ⟨t, rfl⟩ := h
    exact .inl ⟨t, rfl, C49_round_trip t⟩
  · right
    have h' : ∀ t : ReportType, s ≠ some (typeToString t.code) := fun t e => h ⟨t, e⟩
    refine ⟨h', ?_⟩
    unfold typeFromString typeNames
    have e : ∀ (t : ReportType) (n : Str) (i : Int) (l : List Str), typeToString t.code = n →
        fromStringLoop s i (n :: l) = fromStringLoop s (i + 1) l := by
      rintro t n i l rfl
      rw [fromStringLoop, if_neg (by rw [strcmp0_some_eq_zero]; exact h' t)]
    exact (e .invalid _ _ _ rfl).trans ((e .core _ _ _ rfl).trans ((e .python _ _ _ rfl).trans
      ((e .kerneloops _ _ _ rfl).trans ((e .java _ _ _ rfl).trans ((e .gdb _ _ _ rfl).trans
      ((e .ruby _ _ _ rfl).trans (e .javascript _ _ _ rfl)))))))

/-- C49: numbers that are not report types have the name of INVALID. -/
theorem C49_out_of_range (n : Int) (h : ∀ t : ReportType, t.code ≠ n) : typeToString n = typeToString (ReportType.code .invalid) := by
  unfold typeToString
  by_cases hn : n < 0 ∨ n ≥ 8
  · rw [if_pos hn]; rfl
  · exfalso
    have : n = 0 ∨ n = 1 ∨ n = 2 ∨ n = 3 ∨ n = 4 ∨ n = 5 ∨ n = 6 ∨ n = 7 := by omega
    rcases this with rfl | rfl | rfl | rfl | rfl | rfl | rfl | rfl
    · exact h .invalid rfl
    · exact h .core rfl
    · exact h .python rfl
    · exact h .kerneloops rfl
    · exact h .java rfl
    · exact h .gdb rfl
    · exact h .ruby rfl
    · exact h .javascript rfl

/-- The name ABRT gives to problems of a type (as used in ABRT's problem directories). -/
def abrtName : ReportType → Option Str
  | .core => some c!"CCpp"
  | .python => some c!"Python"
  | .kerneloops => some c!"Kerneloops"
  | .java => some c!"Java"
  | .ruby => some c!"Ruby"
  | .javascript => some c!"JavaScript"
  | .invalid => none
  | .gdb => none

/-- C49: every problem type of ABRT that starts with the name of a type is recognised as that type (Python3 for instance),
except for JavaScript (see `C49_not_javascript`). -/
theorem C49_abrt_partial (t : ReportType) (n : Str) (h : abrtName t = some n) (hj : t ≠ .javascript) (suffix : Str) :
    abrtType (n ++ suffix) = t := by
  cases t with
  | javascript => exact absurd rfl hj
  | invalid => simp [abrtName] at h
  | gdb => simp [abrtName] at h
  | _ => obtain rfl := Option.some.inj h; simp [abrtType, startsWith]

/-- C49: a problem type is recognised as a type only if it starts with the name of that type. -/
theorem C49_abrt_only (s : Str) (h : abrtType s ≠ .invalid) : ∃ n, abrtName (abrtType s) = some n ∧ n <+: s := by
  unfold abrtType at h ⊢
  split at h
  · next e => rw [if_pos e]; exact ⟨_, rfl, List.isPrefixOf_iff_prefix.1 e⟩
  next e1 =>
  rw [if_neg e1]
  split at h
  · next e => rw [if_pos e]; exact ⟨_, rfl, List.isPrefixOf_iff_prefix.1 e⟩
  next e1 =>
  rw [if_neg e1]
  split at h
  · next e => rw [if_pos e]; exact ⟨_, rfl, List.isPrefixOf_iff_prefix.1 e⟩
  next e1 =>
  rw [if_neg e1]
  split at h
  · next e => rw [if_pos e]; exact ⟨_, rfl, List.isPrefixOf_iff_prefix.1 e⟩
  next e1 =>
  rw [if_neg e1]
  split at h
  · next e => rw [if_pos e]; exact ⟨_, rfl, List.isPrefixOf_iff_prefix.1 e⟩
  · exact absurd rfl h

/-- C49 is violated: problems of type JavaScript are taken for Java problems, and no problem type at all is recognised as
JavaScript. -/
theorem C49_not_javascript : abrtType c!"JavaScript" = .java ∧ ∀ s, abrtType s ≠ .javascript := by
  refine ⟨by decide +kernel, fun s => ?_⟩
  unfold abrtType
  repeat' split
  all_goals simp

example : abrtType c!"Python3" = .python := by decide +kernel
example : typeFromString (some c!"Core") = 0 := by decide +kernel

end Satyr.Report
