import Verif.Platform.Model
import Verif.Json.Script
import Verif.Text.JsLoc
/-! # Platforms of JavaScript: statements and proofs -/
namespace Satyr.Platform
open Satyr.CStr Satyr.Frames Satyr.Text Satyr.Json.Js

/-- C116: engine and runtime of a platform put together from an engine below 16 and a runtime are these. -/
theorem C116_parts (r e : Nat) (he : e < 16) : engine (assemble r e) = e ∧ runtime (assemble r e) = r := by
  have h : assemble r e = 16 * r + e := by
    unfold assemble
    rw [Nat.shiftLeft_eq, Nat.mul_comm, show (2 : Nat) ^ 4 = 16 from rfl]
    exact (Nat.two_pow_add_eq_or_of_lt (i := 4) he r).symm
  constructor
  · rw [h]
    unfold engine
    rw [show (0xF : Nat) = 2 ^ 4 - 1 from rfl, Nat.and_two_pow_sub_one_eq_mod]
    omega
  · rw [h]
    unfold runtime
    rw [Nat.shiftRight_eq_div_pow]
    omega

example : engine (assemble 0xFFF 0xF) = 0xF ∧ runtime (assemble 0xFFF 0xF) = 0xFFF := by decide

/-- C116: the number of an engine or runtime is found for exactly its own name. -/
theorem C116_names (s : Str) (n : Nat) (hn : n ≠ 0) :
    (engineOf s = n ↔ engineName n = some s) ∧ (runtimeOf s = n ↔ runtimeName n = some s) := by
  unfold engineOf engineName runtimeOf runtimeName
  simp only [strcmp_eq_zero]
  constructor
  · by_cases h : s = c!"V8"
    · subst h
      by_cases h1 : n = 1
      · simp [h1]
      · simp [h1, Ne.symm h1]
    · by_cases h1 : n = 1
      · simp [h1, h, Ne.symm h]
      · simp [h1, h, Ne.symm hn]
  · by_cases h : s = c!"Node.js"
    · subst h
      by_cases h1 : n = 1
      · simp [h1]
      · simp [h1, Ne.symm h1]
    · by_cases h1 : n = 1
      · simp [h1, h, Ne.symm h]
      · simp [h1, h, Ne.symm hn]

/-- C116: for the name Node.js, whatever the version, the platform is Node.js with the engine V8 and there is no message. For every
other name there is no platform, and the message has the name. -/
theorem C116_from_string (name : Str) (version : Option Str) :
    (name = c!"Node.js" → ∃ p, fromString name version = (p, none) ∧ p ≠ 0 ∧ runtimeName (runtime p) = some c!"Node.js" ∧
      engineName (engine p) = some c!"V8") ∧
    (name ≠ c!"Node.js" →
      fromString name version = (0, some (c!"No known JavaScript platform with runtime '" ++ name ++ c!"'"))) := by
  constructor
  · rintro rfl
    exact ⟨17, rfl, by decide +kernel⟩
  · intro h
    have h0 : runtimeOf name = 0 := by
      unfold runtimeOf
      rw [if_neg fun e => h (strcmp_eq_zero.1 e)]
    unfold fromString
    rw [h0]
    rfl

example : fromString c!"Chrome" none = (0, some c!"No known JavaScript platform with runtime 'Chrome'") := by decide +kernel

theorem valid_iff (p : Nat) : (validRuntime (runtime p) = true ∧ validEngine (engine p) = true) ↔ p = 17 := by
  have h : p = 16 * runtime p + engine p := by
    unfold runtime engine
    rw [show (0xF : Nat) = 2 ^ 4 - 1 from rfl, Nat.and_two_pow_sub_one_eq_mod, Nat.shiftRight_eq_div_pow]
    omega
  constructor
  · rintro ⟨h1, h2⟩
    simp only [validRuntime, validEngine, decide_eq_true_eq] at h1 h2
    omega
  · rintro rfl
    decide

/-- What a parser returns, with the platform of the stack trace replaced. -/
def onPlatform (p : Nat) : Option (JsTrace × Str) × Loc → Option (JsTrace × Str) × Loc
  | (some (t, s), l) => (some ({ t with platform := p }, s), l)
  | (none, l) => (none, l)

/-- C116: on a platform whose runtime and engine are both known, a stack trace is read as by the parser that does not know
the platform, up to the same place, with the same location, but with the platform it was read for. On other platforms nothing
is read. The same holds for frames. -/
theorem C116_parse (p : Nat) (inp : Str) (l : Loc) :
    ((runtimeName (runtime p)).isSome ∧ (engineName (engine p)).isSome →
      (∃ r, Text.Js.parseTraceL inp l = .ok r ∧ parseTrace p inp l = .ok (onPlatform p r)) ∧
      parseFrame p inp l = Text.Js.parseFrameL inp l) ∧
    (¬ ((runtimeName (runtime p)).isSome ∧ (engineName (engine p)).isSome) →
      parseTrace p inp l = .ok (none, l) ∧ parseFrame p inp l = .ok (none, l)) := by
  have hn : ((runtimeName (runtime p)).isSome ∧ (engineName (engine p)).isSome) ↔
      (validRuntime (runtime p) = true ∧ validEngine (engine p) = true) := by
    unfold runtimeName engineName validRuntime validEngine
    have e : ∀ n, (0 < n ∧ n < 2) ↔ n = 1 := by omega
    simp only [e, decide_eq_true_eq]
    by_cases h1 : runtime p = 1 <;> by_cases h2 : engine p = 1 <;> simp [h1, h2]
  rw [hn]
  constructor
  · rintro ⟨h1, h2⟩
    constructor
    · obtain ⟨r0, hr0⟩ := Text.Js.C56_js_trace inp
      rw [← Text.Js.parseTraceL_eq inp l] at hr0
      rcases hr : Text.Js.parseTraceL inp l with r | _ | _
      · refine ⟨r, rfl, ?_⟩
        unfold parseTrace
        rw [h1, h2, hr]
        obtain ⟨_ | ⟨t, s⟩, l'⟩ := r <;> rfl
      · rw [hr] at hr0
        cases hr0
      · rw [hr] at hr0
        cases hr0
    · unfold parseFrame
      rw [h1, h2]
      rfl
  · intro h
    unfold parseTrace parseFrame
    by_cases h1 : validRuntime (runtime p) = true
    · have h2 : validEngine (engine p) = false := by
        by_contra h2
        exact h ⟨h1, by simpa using h2⟩
      rw [h1, h2]
      exact ⟨rfl, rfl⟩
    · have h1 : validRuntime (runtime p) = false := by simpa using h1
      rw [h1]
      exact ⟨rfl, rfl⟩

/-- Two frames, read for Node.js. -/
def sample : Str := c!"Error: no\n    at f (/a.js:1:2)\n    at /b.js:3:4\n"

example : parseTrace 17 sample Loc.init = .ok (some (⟨some c!"Error",
    [⟨some c!"/a.js", 1, 2, some c!"f"⟩, ⟨some c!"/b.js", 3, 4, none⟩], 17⟩, []), ⟨4, 0⟩) := by decide +kernel
example : parseTrace 1 sample Loc.init = .ok (none, Loc.init) := by decide +kernel

/-- C116, for stack traces with numbers below 2^31 in which something is known about each frame (missing: other stack traces,
see C44): a stack trace read for a platform is the same, platform included, after writing it to JSON and reading that back. -/
theorem C116_json_partial (p : Nat) (inp rest : Str) (l l' : Loc) (t : JsTrace) (h : parseTrace p inp l = .ok (some (t, rest), l'))
    (hf : ∀ f ∈ t.frames, FrameWF f) : t.platform = p ∧ (Json.parse (toJson t)).bind fromJson = some t := by
  by_cases hv : (runtimeName (runtime p)).isSome ∧ (engineName (engine p)).isSome
  · obtain ⟨⟨r, -, h2⟩, -⟩ := (C116_parse p inp l).1 hv
    have hp : p = 17 := by
      have e1 : runtime p = 1 := by
        by_contra e
        simp [runtimeName, e] at hv
      have e2 : engine p = 1 := by
        by_contra e
        simp [engineName, e] at hv
      refine (valid_iff p).1 ?_
      rw [e1, e2]
      decide
    have ht : t.platform = p := by
      rw [h2] at h
      obtain ⟨_ | ⟨t', s⟩, l1⟩ := r
      · cases h
      · cases h
        rfl
    exact ⟨ht, C44_round_trip_partial t hf (.inr (ht.trans hp))⟩
  · rw [((C116_parse p inp l).2 hv).1] at h
    cases h

/-- C116 does not hold without a platform: a stack trace read by the parser that does not know the platform has the engine V8 and
no runtime; after writing it to JSON and reading that back it has the runtime Node.js and no engine. -/
theorem C116_not_guessed : ∃ t s l t', Text.Js.parseTraceL sample Loc.init = .ok (some (t, s), l) ∧
    engineName (engine t.platform) = some c!"V8" ∧ runtimeName (runtime t.platform) = none ∧
    (Json.parse (toJson t)).bind fromJson = some t' ∧
    engineName (engine t'.platform) = none ∧ runtimeName (runtime t'.platform) = some c!"Node.js" := by
  refine ⟨⟨some c!"Error", [⟨some c!"/a.js", 1, 2, some c!"f"⟩, ⟨some c!"/b.js", 3, 4, none⟩], 1⟩, [], ⟨4, 0⟩, _, by decide +kernel,
    by decide +kernel, by decide +kernel, C44_read_back _ (by simp [Some]), by decide +kernel, by decide +kernel⟩

end Satyr.Platform
