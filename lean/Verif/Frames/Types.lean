import Verif.Normalize.Model
/-!
# Frame structures

`GdbFrame` and `CoreFrame` are in `Verif.Normalize.Model`. A `uint32_t`/`uint64_t` member is a natural number; the
bounds are stated by the `WF` predicates where they matter. `type` and `next` are left out.
-/
namespace Satyr.Frames
open Satyr.CStr

/-- `struct sr_koops_frame` (include/koops/frame.h:43-105). -/
structure KoopsFrame where
  address : Nat := 0
  reliable : Bool := false
  functionName : Option Str := none
  functionOffset : Nat := 0
  functionLength : Nat := 0
  moduleName : Option Str := none
  fromAddress : Nat := 0
  fromFunctionName : Option Str := none
  fromFunctionOffset : Nat := 0
  fromFunctionLength : Nat := 0
  fromModuleName : Option Str := none
  specialStack : Option Str := none
  deriving Repr, DecidableEq

/-- `struct sr_python_frame` (include/python/frame.h). -/
structure PythonFrame where
  specialFile : Bool := false
  fileName : Option Str := none
  fileLine : Nat := 0
  specialFunction : Bool := false
  functionName : Option Str := none
  lineContents : Option Str := none
  deriving Repr, DecidableEq

/-- `struct sr_java_frame` (include/java/frame.h). -/
structure JavaFrame where
  name : Option Str := none
  fileName : Option Str := none
  fileLine : Nat := 0
  classPath : Option Str := none
  isNative : Bool := false
  isException : Bool := false
  message : Option Str := none
  deriving Repr, DecidableEq

/-- `struct sr_ruby_frame` (include/ruby/frame.h). -/
structure RubyFrame where
  fileName : Option Str := none
  fileLine : Nat := 0
  specialFunction : Bool := false
  functionName : Option Str := none
  blockLevel : Nat := 0
  rescueLevel : Nat := 0
  deriving Repr, DecidableEq

/-- `struct sr_js_frame` (include/js/frame.h). -/
structure JsFrame where
  fileName : Option Str := none
  fileLine : Nat := 0
  lineColumn : Nat := 0
  functionName : Option Str := none
  deriving Repr, DecidableEq

end Satyr.Frames
