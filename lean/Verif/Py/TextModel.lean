import Verif.Text.RubyModel
import Verif.Text.JsModel
import Verif.Text.JavaModel
import Verif.Text.PythonModel
import Verif.Text.KoopsModel
import Verif.Text.LocModel
import Verif.Normalize.Model
/-!
# Model of the texts of frames in Python

The functions behind `str(frame)` and the constructors that take a text. A frame object is modelled by its C frame; the exception of a
constructor is `ValueError` with the message of the parser, which is not modelled (every parser sets one when it fails:
lib/ruby_frame.c:205-331, lib/js_frame.c:206-369, lib/java_frame.c:493, lib/python_frame.c:245-319).
-/
namespace Satyr.Py.Text
open Satyr.CStr Satyr.Frames Satyr.Normalize

/-- `printf("%d")` of an unsigned number of 32 bits. -/
def dec32 (n : Nat) : Str := intDec (if n < 2 ^ 31 then n else (n : Int) - 2 ^ 32)

/-- `printf("%016x")`. -/
def hex16 (n : Nat) : Str := List.replicate (16 - (natHex n).length) '0' ++ natHex n

/-- A part of a text that is there only under a condition. -/
def part (b : Bool) (s : Str) : Str := if b = true then s else []

/-- A string in angle brackets, if it is special. -/
def special (b : Bool) (s : Str) : Str := part b c!"<" ++ s ++ part b c!">"

/-! ## str -/

/-- The levels of blocks (python/py_ruby_frame.c:190-197). -/
def blockPart (n : Nat) : Str :=
  if n = 1 then c!"block in " else if n > 1 then c!"block (" ++ dec32 n ++ c!" levels) in " else []

/-- `sr_py_ruby_frame_str` (python/py_ruby_frame.c:163-209). -/
def rubyStr (f : RubyFrame) : Str :=
  f.fileName.getD [] ++
  part (f.fileLine ≠ 0) (c!":" ++ dec32 f.fileLine) ++
  match f.functionName with
  | none => []
  | some n => c!":in `" ++ (List.replicate f.rescueLevel c!"rescue in ").flatten ++ blockPart f.blockLevel ++ special f.specialFunction n ++ c!"'"

/-- `sr_py_js_frame_str` (python/py_js_frame.c:159-192). -/
def jsStr (f : JsFrame) : Str :=
  c!"at " ++
  (match f.functionName with | none => [] | some n => n ++ c!" (") ++
  f.fileName.getD c!"<unknown>" ++
  c!":" ++ dec32 f.fileLine ++ c!":" ++ dec32 f.lineColumn ++
  part f.functionName.isSome c!")"

/-- `sr_py_java_frame_str` (python/py_java_frame.c:166-206). An exception without a name makes GLib print a warning. -/
def javaStr (f : JavaFrame) : Str :=
  if f.isException = true then
    f.name.getD [] ++ (match f.message with | none => [] | some m => c!": " ++ m)
  else
    c!"\t" ++
    (match f.name with | none => [] | some n => c!"at " ++ n) ++
    (match f.fileName with | none => [] | some n => c!"(" ++ n) ++
    part (f.fileLine ≠ 0) (c!":" ++ dec32 f.fileLine) ++
    part f.isNative c!"(Native Method" ++
    c!")"

/-- `sr_py_python_frame_str` (python/py_python_frame.c:163-192). -/
def pythonStr (f : PythonFrame) : Str :=
  (match f.fileName with | none => [] | some n => c!"File \"" ++ special f.specialFile n ++ c!"\"") ++
  part (f.fileLine ≠ 0) (c!", " ++ dec32 f.fileLine) ++
  (match f.functionName with | none => [] | some n => c!", in " ++ special f.specialFunction n) ++
  (match f.lineContents with | none => [] | some n => c!"\n    " ++ n)

/-- The name of a module (python/py_koops_frame.c:193-194). -/
def modulePart : Option Str → Str
  | none => []
  | some n => c!" [" ++ n ++ c!"]"

/-- `sr_py_koops_frame_str` (python/py_koops_frame.c:170-218). -/
def koopsStr (f : KoopsFrame) : Str :=
  (match f.specialStack with | none => [] | some n => c!"[" ++ n ++ c!"] ") ++
  part (f.address ≠ 0) (c!"[0x" ++ hex16 f.address ++ c!"] ") ++
  part (!f.reliable) c!"? " ++
  f.functionName.getD [] ++
  part (f.functionOffset ≠ 0) (c!"+0x" ++ natHex f.functionOffset) ++
  part (f.functionLength ≠ 0) (c!"/0x" ++ natHex f.functionLength) ++
  modulePart f.moduleName ++
  part (f.fromFunctionName.isSome || f.fromAddress ≠ 0) c!" from " ++
  part (f.fromAddress ≠ 0) (c!"[0x" ++ hex16 f.fromAddress ++ c!"] ") ++
  f.fromFunctionName.getD [] ++
  part (f.fromFunctionOffset ≠ 0) (c!"+0x" ++ natHex f.fromFunctionOffset) ++
  part (f.fromFunctionLength ≠ 0) (c!"/0x" ++ natHex f.fromFunctionLength) ++
  modulePart f.fromModuleName

/-! ## Constructors -/

/-- The result of a constructor: an object, or `ValueError`. -/
inductive Made (F : Type)
  | object (f : F)
  | valueError
  deriving DecidableEq

/-- The constructors that all classes but one have (python/py_ruby_frame.c:121-151, python/py_js_frame.c:117-147,
python/py_java_frame.c:124-154, python/py_python_frame.c:121-151). What is left of the text is ignored. -/
def make {F : Type} (parse : Str → Out (Option (F × Str))) (text : Str) : Out (Made F) := do
  match ← parse text with
  | none => .ok .valueError
  | some (f, _) => .ok (.object f)

/-- `sr_py_ruby_frame_new` (python/py_ruby_frame.c:122-151). -/
def rubyNew : Str → Out (Made RubyFrame) := make Satyr.Text.Ruby.parseFrame

/-- `sr_py_js_frame_new` (python/py_js_frame.c:118-147). -/
def jsNew : Str → Out (Made JsFrame) := make Satyr.Text.Js.parseFrame

/-- `sr_py_java_frame_new` (python/py_java_frame.c:125-154). -/
def javaNew : Str → Out (Made JavaFrame) := make Satyr.Text.Java.parseFrame

/-- `sr_py_python_frame_new` (python/py_python_frame.c:122-151). -/
def pythonNew (text : Str) : Out (Made PythonFrame) := do
  match ← Satyr.Text.Python.parseFrame text with
  | (none, _) => .ok .valueError
  | (some f, _) => .ok (.object f)

/-- `sr_py_koops_frame_new` (python/py_koops_frame.c:137-158): an object in any case, without a frame if the text cannot be read. -/
def koopsNew (text : Str) : Out (Option KoopsFrame) := do
  match ← Satyr.Text.Koops.parseFrame text with
  | none => .ok none
  | some (f, _) => .ok (some f)

/-- `str` of an object of the class `KoopsFrame`: the frame is dereferenced. -/
def koopsObjectStr : Option KoopsFrame → Out Str
  | none => .ub
  | some f => .ok (koopsStr f)

end Satyr.Py.Text
