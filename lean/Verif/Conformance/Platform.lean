import Verif.Platform.Model
import Verif.Json.Text
/-!
# The unit tests of JavaScript platforms, run on the model

Inputs and expected results are those of tests/js_platform.c, which the C functions pass. The examples do not prove anything
for all inputs; they are evidence that the model is a model of the code.
-/
namespace Satyr.Conformance.Platform
open Satyr.CStr Satyr.Frames Satyr.Platform Satyr.Json.Js

set_option maxRecDepth 20000

/-! Names (tests/js_platform.c:19-25, 37-41, 53-59, 71-75) -/

example : engineName 0 = none := by decide +kernel
example : engineName 1 = some c!"V8" := by decide +kernel
example : engineName 2 = none := by decide +kernel
example : engineName 0xF = none := by decide +kernel
example : engineOf c!"foo" = 0 := by decide +kernel
example : engineOf c!"V8" = 1 := by decide +kernel
example : runtimeName 0 = none := by decide +kernel
example : runtimeName 1 = some c!"Node.js" := by decide +kernel
example : runtimeName 2 = none := by decide +kernel
example : runtimeName 0xFFF = none := by decide +kernel
example : runtimeOf c!"foo" = 0 := by decide +kernel
example : runtimeOf c!"Node.js" = 1 := by decide +kernel

/-! `test_js_platform_basics`, `test_js_platform_from_string` (tests/js_platform.c:78-101, 142-172) -/

example : engine (assemble 1 1) = 1 ∧ runtime (assemble 1 1) = 1 := by decide +kernel
example : fromString c!"foo" none = (0, some c!"No known JavaScript platform with runtime 'foo'") := by decide +kernel
example : fromString c!"foo" (some c!"blah") = (0, some c!"No known JavaScript platform with runtime 'foo'") := by decide +kernel
example : fromString c!"Node.js" none = (assemble 1 1, none) := by decide +kernel
example : fromString c!"Node.js" (some c!"foo") = (assemble 1 1, none) := by decide +kernel

/-! `test_js_platform_to_json` (tests/js_platform.c:188-219) -/

example : platformToJson (assemble 0 0) = c!"{    \"engine\": \"<unknown>\"\n,    \"runtime\": \"<unknown>\"\n}\n" := by decide +kernel
example : platformToJson (assemble 2 2) = c!"{    \"engine\": \"<unknown>\"\n,    \"runtime\": \"<unknown>\"\n}\n" := by decide +kernel
example : platformToJson (assemble 0xFFF 0xF) = c!"{    \"engine\": \"<unknown>\"\n,    \"runtime\": \"<unknown>\"\n}\n" := by decide +kernel
example : platformToJson (assemble 1 0) = c!"{    \"engine\": \"<unknown>\"\n,    \"runtime\": \"Node.js\"\n}\n" := by decide +kernel
example : platformToJson (assemble 0 1) = c!"{    \"engine\": \"V8\"\n,    \"runtime\": \"<unknown>\"\n}\n" := by decide +kernel
example : platformToJson (assemble 1 1) = c!"{    \"engine\": \"V8\"\n,    \"runtime\": \"Node.js\"\n}\n" := by decide +kernel

/-! `test_js_platform_from_json` (tests/js_platform.c:265-301) -/

example : (Json.parse c!"{}").map platformFromJson = some none := by decide +kernel
example : (Json.parse c!"{ \"engine\": \"foo\" }").map platformFromJson = some none := by decide +kernel
example : (Json.parse c!"{ \"engine\": \"V8\" }").map platformFromJson = some none := by decide +kernel
example : (Json.parse c!"{ \"runtime\": \"blah\" }").map platformFromJson = some none := by decide +kernel
example : (Json.parse c!"{ \"runtime\": \"Node.js\" }").map platformFromJson = some none := by decide +kernel
example : (Json.parse c!"{ \"engine\": \"foo\", \"runtime\": \"blah\" }").map platformFromJson = some none := by decide +kernel
example : (Json.parse c!"{ \"engine\": \"V8\", \"runtime\": \"blah\" }").map platformFromJson = some none := by decide +kernel
example : (Json.parse c!"{ \"engine\": \"foo\", \"runtime\": \"Node.js\" }").map platformFromJson = some none := by decide +kernel
example : (Json.parse c!"{ \"engine\": \"V8\", \"runtime\": \"Node.js\" }").map platformFromJson = some (some (assemble 1 1)) := by decide +kernel

/-! `test_js_platform_parse_frame` (tests/js_platform.c:334-365). The invalid platforms are tested with a null pointer. -/

/-- The frame of a result. -/
def frame (r : Out (Option (JsFrame × Str) × Loc)) : Option (Option JsFrame) :=
  match r with
  | .ok (x, _) => some (x.map fun p => p.1)
  | _ => none

example : frame (parseFrame (assemble 0 0) [] ⟨1, 0⟩) = some none := by decide +kernel
example : frame (parseFrame (assemble 0 2) [] ⟨1, 0⟩) = some none := by decide +kernel
example : frame (parseFrame (assemble 0 0xF) [] ⟨1, 0⟩) = some none := by decide +kernel
example : frame (parseFrame (assemble 0 1) [] ⟨1, 0⟩) = some none := by decide +kernel
example : frame (parseFrame (assemble 2 0) [] ⟨1, 0⟩) = some none := by decide +kernel
example : frame (parseFrame (assemble 2 2) [] ⟨1, 0⟩) = some none := by decide +kernel
example : frame (parseFrame (assemble 2 0xF) [] ⟨1, 0⟩) = some none := by decide +kernel
example : frame (parseFrame (assemble 2 1) [] ⟨1, 0⟩) = some none := by decide +kernel
example : frame (parseFrame (assemble 0xFFF 0) [] ⟨1, 0⟩) = some none := by decide +kernel
example : frame (parseFrame (assemble 0xFFF 2) [] ⟨1, 0⟩) = some none := by decide +kernel
example : frame (parseFrame (assemble 0xFFF 0xF) [] ⟨1, 0⟩) = some none := by decide +kernel
example : frame (parseFrame (assemble 0xFFF 1) [] ⟨1, 0⟩) = some none := by decide +kernel
example : frame (parseFrame (assemble 1 0) [] ⟨1, 0⟩) = some none := by decide +kernel
example : frame (parseFrame (assemble 1 2) [] ⟨1, 0⟩) = some none := by decide +kernel
example : frame (parseFrame (assemble 1 0xF) [] ⟨1, 0⟩) = some none := by decide +kernel
example : frame (parseFrame (assemble 1 1) c!"at foo (bar.js:1:2)" ⟨1, 0⟩) = some (some { fileName := some c!"bar.js", fileLine := 1, lineColumn := 2, functionName := some c!"foo" }) := by decide +kernel

end Satyr.Conformance.Platform
