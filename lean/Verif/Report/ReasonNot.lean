import Verif.Report.Model
import Verif.Report.Reason
/-!
# Reasons that cannot be written (C64)
-/
namespace Satyr.Report
open Satyr.CStr
open Satyr.Json (Value)

/-- The full claim is false: reports read from JSON documents can have stack traces without a reason, because a frame without a file name
is read, but its reason is not defined. -/
theorem C64_not_defined : ∀ type, type = .python ∨ type = .ruby → ∃ j t, traceFromJson type j = .ok (some t) ∧ traceReason t = .ub := by
  rintro type (rfl | rfl)
  · exact ⟨.obj [(c!"stacktrace", .arr [.obj []])], _, rfl, rfl⟩
  · exact ⟨.obj [(c!"stacktrace", .arr [.obj []])], _, rfl, rfl⟩

/-- The same for JavaScript stack traces, which are read from JSON without a report. -/
theorem C64_not_defined_js : ∃ j t, Json.Js.fromJson j = some t ∧ jsReason t = .ub :=
  ⟨.obj [(c!"stacktrace", .arr [.obj []])], _, rfl, rfl⟩
end Satyr.Report
