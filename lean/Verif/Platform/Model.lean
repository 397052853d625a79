import Verif.Json.ScriptModel
import Verif.Text.JsLocModel

/-! # Platforms of JavaScript (lib/js_platform.c, include/js/platform.h)

A platform is an unsigned number of 32 bits: the engine is in the lowest 4 bits, the runtime in the others. -/

namespace Satyr.Platform
open Satyr.CStr Satyr.Frames Satyr.Text Satyr.Json.Js

/-- `sr_js_platform_engine` (include/js/platform.h:103). -/
def engine (platform : Nat) : Nat := platform &&& 0xF

/-- `sr_js_platform_runtime` (include/js/platform.h:105). -/
def runtime (platform : Nat) : Nat := platform >>> 4

/-- `SR_JS_ENGINE_VALIDITY_CHECK` (include/js/platform.h:57); the upper bound is 2. -/
def validEngine (e : Nat) : Bool := decide (0 < e ∧ e < 2)

/-- `SR_JS_RUNTIME_VALIDITY_CHECK` (include/js/platform.h:82); the upper bound is 2. -/
def validRuntime (r : Nat) : Bool := decide (0 < r ∧ r < 2)

/-- The engine of a runtime (lib/js_platform.c:107-118). -/
def engineFor (r : Nat) : Nat := if r = 1 then 1 else 0

/-- `sr_js_platform_from_string` (lib/js_platform.c:93-132): the platform, 0 for none, and the error message. -/
def fromString (name : Str) (version : Option Str) : Nat × Option Str :=
  let r := runtimeOf name
  if r = 0 then (0, some (c!"No known JavaScript platform with runtime '" ++ name ++ c!"'")) else
  let e := engineFor r
  if e = 0 then
    (0, some (c!"No known JavaScript engine for runtimeby '" ++ name ++ (if version.isSome then c!" " else []) ++ version.getD [] ++ c!"'"))
  else (assemble r e, none)

/-- `sr_js_platform_parse_frame` (lib/js_platform.c:242-260); no runtime has a parser of its own (lib/js_platform.c:87). -/
def parseFrame (platform : Nat) (inp : Str) (l : Loc) : Out (Option (JsFrame × Str) × Loc) :=
  if validRuntime (runtime platform) = false then .ok (none, l)
  else if validEngine (engine platform) = false then .ok (none, l)
  else Text.Js.parseFrameL inp l

/-- `sr_js_platform_parse_stacktrace` (lib/js_platform.c:262-286). -/
def parseTrace (platform : Nat) (inp : Str) (l : Loc) : Out (Option (JsTrace × Str) × Loc) :=
  if validRuntime (runtime platform) = false then .ok (none, l)
  else if validEngine (engine platform) = false then .ok (none, l)
  else do
    match ← Text.Js.parseTraceL inp l with
    | (none, l) => .ok (none, l)
    | (some (t, s), l) => .ok (some ({ t with platform := platform }, s), l)

end Satyr.Platform
