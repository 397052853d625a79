import Verif.Frames.Types
/-!
# Model of the frame comparison functions

`int` results are integers; a difference of unsigned members stored in an `int` is wrapped to 32 bits as on every
supported platform, one stored in an `int64_t` to 64 bits. The string comparisons return -1, 0 or 1 (their sign is all
the callers use).
-/
namespace Satyr.Frames
open Satyr.CStr Satyr.Normalize

/-- Conversion of a mathematical integer to `int` (modulo 2^32). -/
def wrap32 (x : Int) : Int := (x + 2147483648) % 4294967296 - 2147483648

/-- Conversion to `int64_t` (modulo 2^64). -/
def wrap64 (x : Int) : Int := (x + 9223372036854775808) % 18446744073709551616 - 9223372036854775808

/-- `int d = a - b;` for unsigned members. -/
def diff32 (a b : Nat) : Int := wrap32 ((a : Int) - b)

/-- `int d = a - b;` for `bool` members. -/
def diffBool (a b : Bool) : Int := (if a then 1 else 0) - (if b then 1 else 0)

/-- `if (x != 0) return x; return y;` -/
def orElse0 (x y : Int) : Int := if x ≠ 0 then x else y

/-- `int64_t d = a - b; if (d != 0) return d;` in a function returning `int`: the test is on 64 bits, the returned
value on 32. -/
def ret64 (a b : Nat) (y : Int) : Int :=
  let d := wrap64 ((a : Int) - b)
  if d ≠ 0 then wrap32 d else y

/-- `sr_gdb_frame_cmp` (lib/gdb_frame.c:167-225). -/
def gdbCmp (compareNumber : Bool) (f g : GdbFrame) : Int :=
  if f.signalHandlerCalled then (if g.signalHandlerCalled = false then 1 else 0)
  else if g.signalHandlerCalled then -1
  else
    orElse0 (strcmp0 f.functionName g.functionName) <|
    orElse0 (strcmp0 f.functionType g.functionType) <|
    orElse0 (strcmp0 f.sourceFile g.sourceFile) <|
    orElse0 (diff32 f.sourceLine g.sourceLine) <|
    orElse0 (strcmp0 f.libraryName g.libraryName) <|
    if compareNumber then orElse0 (diff32 f.number g.number) 0 else 0

/-- `sr_gdb_frame_cmp_distance` (lib/gdb_frame.c:227-248). -/
def gdbCmpDistance (f g : GdbFrame) : Int :=
  if strcmp0 f.functionName (some c!"??") = 0 ∧ strcmp0 g.functionName (some c!"??") = 0 then -1
  else orElse0 (strcmp0 f.functionName g.functionName) <|
    match f.libraryName, g.libraryName with
    | some x, some y => strcmp x y
    | _, _ => 0

/-- `sr_core_frame_cmp` (lib/core_frame.c:158-192). -/
def coreCmp (f g : CoreFrame) : Int :=
  orElse0 (strcmp0 f.buildId g.buildId) <|
  orElse0 (diff32 f.buildIdOffset g.buildIdOffset) <|
  orElse0 (strcmp0 f.functionName g.functionName) <|
  orElse0 (strcmp0 f.fileName g.fileName) <|
  orElse0 (strcmp0 f.fingerprint g.fingerprint) 0

/-- `sr_core_frame_cmp_distance` (lib/core_frame.c:194-225). -/
def coreCmpDistance (f g : CoreFrame) : Int :=
  match f.functionName, g.functionName with
  | some x, some y => strcmp x y
  | _, _ =>
    let buildId := strcmp0 f.buildId g.buildId
    let offset := diff32 f.buildIdOffset g.buildIdOffset
    if buildId = 0 ∧ offset = 0 then 0
    else match f.fingerprint, g.fingerprint with
    | some x, some y => strcmp x y
    | _, _ => if buildId ≠ 0 then buildId else offset

/-- `sr_koops_frame_cmp` (lib/koops_frame.c:125-200); the numeric differences are second minus first. -/
def koopsCmp (f g : KoopsFrame) : Int :=
  orElse0 (diff32 g.address f.address) <|
  orElse0 (diffBool g.reliable f.reliable) <|
  orElse0 (strcmp0 f.functionName g.functionName) <|
  ret64 g.functionOffset f.functionOffset <|
  ret64 g.functionLength f.functionLength <|
  orElse0 (strcmp0 f.moduleName g.moduleName) <|
  orElse0 (diff32 g.fromAddress f.fromAddress) <|
  orElse0 (strcmp0 f.fromFunctionName g.fromFunctionName) <|
  ret64 g.fromFunctionOffset f.fromFunctionOffset <|
  ret64 g.fromFunctionLength f.fromFunctionLength <|
  orElse0 (strcmp0 f.fromModuleName g.fromModuleName) <|
  orElse0 (strcmp0 f.specialStack g.specialStack) 0

/-- `sr_koops_frame_cmp_distance` (lib/koops_frame.c:202-213). -/
def koopsCmpDistance (f g : KoopsFrame) : Int := orElse0 (strcmp0 f.functionName g.functionName) 0

/-- `sr_python_frame_cmp` (lib/python_frame.c:116-156). -/
def pythonCmp (f g : PythonFrame) : Int :=
  orElse0 (strcmp0 f.functionName g.functionName) <|
  orElse0 (strcmp0 f.fileName g.fileName) <|
  orElse0 (diff32 f.fileLine g.fileLine) <|
  orElse0 (diffBool f.specialFunction g.specialFunction) <|
  orElse0 (diffBool f.specialFile g.specialFile) <|
  orElse0 (strcmp0 f.lineContents g.lineContents) 0

/-- `sr_python_frame_cmp_distance` (lib/python_frame.c:158-187). -/
def pythonCmpDistance (f g : PythonFrame) : Int :=
  orElse0 (strcmp0 f.functionName g.functionName) <|
  orElse0 (strcmp0 f.fileName g.fileName) <|
  orElse0 (diffBool f.specialFunction g.specialFunction) <|
  orElse0 (diffBool f.specialFile g.specialFile) 0

/-- `sr_java_frame_cmp` (lib/java_frame.c:156-184). -/
def javaCmp (f g : JavaFrame) : Int :=
  if f.isException ≠ g.isException then (if f.isException then 1 else -1)
  else orElse0 (strcmp0 f.name g.name) <|
    if f.isException then 0
    else orElse0 (strcmp0 f.classPath g.classPath) <|
      orElse0 (strcmp0 f.fileName g.fileName) <|
      if f.isNative ≠ g.isNative then (if f.isNative then 1 else -1)
      else diff32 f.fileLine g.fileLine

/-- `sr_java_frame_cmp_distance` (lib/java_frame.c:186-195). -/
def javaCmpDistance (f g : JavaFrame) : Int := orElse0 (strcmp0 f.name g.name) 0

/-- `sr_ruby_frame_cmp` (lib/ruby_frame.c:113-150). -/
def rubyCmp (f g : RubyFrame) : Int :=
  orElse0 (strcmp0 f.functionName g.functionName) <|
  orElse0 (strcmp0 f.fileName g.fileName) <|
  orElse0 (diff32 f.fileLine g.fileLine) <|
  orElse0 (diffBool f.specialFunction g.specialFunction) <|
  orElse0 (diff32 f.blockLevel g.blockLevel) <|
  orElse0 (diff32 f.rescueLevel g.rescueLevel) 0

/-- `sr_ruby_frame_cmp_distance` (lib/ruby_frame.c:152-174). -/
def rubyCmpDistance (f g : RubyFrame) : Int :=
  orElse0 (strcmp0 f.functionName g.functionName) <|
  orElse0 (strcmp0 f.fileName g.fileName) <|
  orElse0 (diffBool f.specialFunction g.specialFunction) 0

/-- `sr_js_frame_cmp` (lib/js_frame.c:118-145). -/
def jsCmp (f g : JsFrame) : Int :=
  orElse0 (strcmp0 f.functionName g.functionName) <|
  orElse0 (strcmp0 f.fileName g.fileName) <|
  orElse0 (diff32 f.fileLine g.fileLine) <|
  orElse0 (diff32 f.lineColumn g.lineColumn) 0

/-- `sr_js_frame_cmp_distance` (lib/js_frame.c:147-169). -/
def jsCmpDistance (f g : JsFrame) : Int :=
  orElse0 (diff32 f.fileLine g.fileLine) <|
  orElse0 (strcmp0 f.functionName g.functionName) <|
  orElse0 (strcmp0 f.fileName g.fileName) 0

end Satyr.Frames
