import Verif.Py.ObjectsModel
import Verif.Py.TextModel
import Verif.Gdb.FrameModel
import Verif.Json.CoreModel
/-!
# Model of GDB and core frames as Python objects

python/py_gdb_frame.c and python/py_core_frame.c. An object is modelled by the C frame that it owns. Attributes are in `Verif.Py.Attr`.
-/
namespace Satyr.Py.FrameObjects
open Satyr.CStr Satyr.Normalize
open Satyr.Py.Base (Exc)
open Satyr.Py.Objects (textArg)

/-- `sr_py_gdb_frame_new` (python/py_gdb_frame.c:176-205). -/
def gdbNew : List Value → Out (Except Exc GdbFrame)
  | [] => .ok (.ok Gdb.newFrame)
  | [v] =>
    match textArg v with
    | .error e => .ok (.error e)
    | .ok s => do
      let r ← Gdb.parseFrame s
      .ok (match r with | none => .error .value | some r => .ok r.1)
  | _ => .ok (.error .type)

/-- What is shown as the function (python/py_gdb_frame.c:223-228). -/
def kindText : Option Str → Str
  | none => c!"signal handler"
  | some n => if startsWith n c!"??" then c!"unknown function" else c!"function " ++ n

/-- The address (python/py_gdb_frame.c:229-230). -/
def addressText (a : Nat) : Str := if a ≠ 2 ^ 64 - 1 then c!" @ 0x" ++ Text.hex16 a else []

/-- The library (python/py_gdb_frame.c:231-232). -/
def libraryText : Option Str → Str
  | none => []
  | some l => c!" (" ++ l ++ c!")"

/-- `sr_py_gdb_frame_str` (python/py_gdb_frame.c:217-237). -/
def gdbStr (f : GdbFrame) : Str :=
  c!"Frame #" ++ natDec f.number ++ c!": " ++ (kindText f.functionName ++ addressText f.address ++ libraryText f.libraryName)

/-- A truth value as a number of Python. -/
def ofBool (b : Bool) : Int := if b then 1 else 0

/-- `sr_py_gdb_frame_calls_func` (python/py_gdb_frame.c:255-264): the list of file names is empty. -/
def callsFunc (f : GdbFrame) : List Value → Except Exc Int
  | [v] =>
    match textArg v with
    | .error e => .error e
    | .ok n => .ok (ofBool (callMatch f.functionName f.sourceFile n []))
  | _ => .error .type

/-- `sr_py_gdb_frame_calls_func_in_file` (python/py_gdb_frame.c:266-275). -/
def callsFuncInFile (f : GdbFrame) : List Value → Except Exc Int
  | [v, u] =>
    match textArg v with
    | .error e => .error e
    | .ok n =>
      match textArg u with
      | .error e => .error e
      | .ok file => .ok (ofBool (callMatch f.functionName f.sourceFile n [file]))
  | _ => .error .type

/-- `sr_py_core_frame_new` (python/py_core_frame.c:123-135): arguments are not looked at. -/
def coreNew (_args : List Value) : CoreFrame := Json.Core.newFrame

/-- The parts of the text of a core frame: address (python/py_core_frame.c:153-154), function (python/py_core_frame.c:156-157), build
id with offset (python/py_core_frame.c:159-161), file (python/py_core_frame.c:163-164), fingerprint (python/py_core_frame.c:166-168). -/
def coreAddress (a : Nat) : Str := if a ≠ 0 then c!"[0x" ++ Text.hex16 a ++ c!"] " else []
def coreName : Option Str → Str
  | none => []
  | some n => n ++ c!" "
def coreBuild (offset : Nat) : Option Str → Str
  | none => []
  | some b => b ++ c!"+0x" ++ natHex offset ++ c!" "
def coreFile : Option Str → Str
  | none => []
  | some f => c!"[" ++ f ++ c!"] "
def corePrint (hashed : Bool) : Option Str → Str
  | none => []
  | some p => c!"fingerprint: " ++ p ++ c!" (" ++ (if hashed then [] else c!"not ") ++ c!"hashed)"

/-- `sr_py_core_frame_str` (python/py_core_frame.c:147-174). -/
def coreStr (f : CoreFrame) : Str :=
  coreAddress f.address ++ (coreName f.functionName ++ (coreBuild f.buildIdOffset f.buildId ++ (coreFile f.fileName ++
    corePrint f.fingerprintHashed f.fingerprint)))

end Satyr.Py.FrameObjects
