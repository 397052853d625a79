import Verif.Py.Attr
import Verif.Py.Metrics
import Verif.Py.CompareModel
import Verif.Rpm.Model
import Verif.Os.Model
/-!
# Model of packages, operating systems and shared libraries as Python objects

python/py_rpm_package.c, python/py_operating_system.c, python/py_gdb_sharedlib.c. Attributes that are accessed through py_common.c are
in `Verif.Py.Attr`. An object is modelled by the C structure that it owns. The object that a failing constructor has made already is
not modelled (it is lost).
-/
namespace Satyr.Py.Objects
open Satyr.CStr Satyr.Frames Satyr.Rpm
open Satyr.Py.Base (Exc)

/-! ## Arguments -/

/-- Format `s` of `PyArg_ParseTuple`: a text without NUL that has a UTF-8 form. -/
def textArg : Value → Except Exc Str
  | .str s => if '\x00' ∈ s then .error .value else .ok s
  | .badStr => .error .value
  | _ => .error .type

/-- Format `I` of `PyArg_ParseTuple`: no check for overflow. -/
def numberArg (v : Value) : Except Exc Nat :=
  match v.asInt with
  | some z => .ok (unsignedArg z)
  | none => .error .type

/-- What the conversion stores. -/
inductive Stored
  | text (s : Str)
  | number (n : Nat)

/-- `PyArg_ParseTuple` with a format of letters `s` (true: `I`) that are all optional. -/
def parseArgs : List Bool → List Value → Except Exc (List Stored)
  | _, [] => .ok []
  | [], _ :: _ => .error .type
  | false :: fs, v :: vs =>
    match textArg v with
    | .error e => .error e
    | .ok s =>
      match parseArgs fs vs with
      | .error e => .error e
      | .ok r => .ok (.text s :: r)
  | true :: fs, v :: vs =>
    match numberArg v with
    | .error e => .error e
    | .ok n =>
      match parseArgs fs vs with
      | .error e => .error e
      | .ok r => .ok (.number n :: r)

def textAt (l : List Stored) (i : Nat) : Option Str :=
  match l[i]? with
  | some (.text s) => some s
  | _ => none

def numberAt (l : List Stored) (i : Nat) (default : Nat) : Nat :=
  match l[i]? with
  | some (.number n) => n
  | _ => default

/-! ## Packages -/

/-- `sr_py_rpm_package_new` (python/py_rpm_package.c:114-145). `junk` is the content of the variable `epoch`, which is not
initialized. More arguments than the format has are refused before any of them is converted. -/
def packageNew (junk : Nat) (args : List Value) : Except Exc Package :=
  if args.length > 5 then .error .type
  else
    match parseArgs [false, true, false, false, false] args with
    | .error e => .error e
    | .ok l => .ok { name := textAt l 0, epoch := numberAt l 1 junk, version := textAt l 2, release := textAt l 3, architecture := textAt l 4 }

/-- The architecture (python/py_rpm_package.c:180-181), the release before it (python/py_rpm_package.c:176-182), the version before
that (python/py_rpm_package.c:167-183). -/
def architectureText : Option Str → Str
  | none => []
  | some a => c!"." ++ a

def releaseText (p : Package) : Str :=
  match p.release with
  | none => []
  | some r => c!"-" ++ r ++ architectureText p.architecture

def versionText (p : Package) : Str :=
  match p.version with
  | none => []
  | some v => c!"-" ++ (if p.epoch ≠ 0 then natDec p.epoch ++ c!":" else []) ++ v ++ releaseText p

/-- `sr_py_rpm_package_str` (python/py_rpm_package.c:157-193). -/
def packageStr (p : Package) : Str :=
  match p.name with
  | none => c!"(unknown)"
  | some n => n ++ versionText p

/-- Assignment to an attribute that may have only some values; none is the deletion. -/
def setChoice (allowed : List Int) : Option Value → Except Exc Int
  | none => .error .type
  | some v =>
    match v.asInt with
    | none => .error .type
    | some z =>
      if -2 ^ 63 ≤ z ∧ z < 2 ^ 63 then (if z ∈ allowed then .ok z else .error .value) else .error .overflow

/-- The numbers of the roles (include/rpm.h:38-49). -/
def roleOf (z : Int) : Role := if z = 0 then .unknown else .affected
def roleNumber : Role → Int
  | .unknown => 0
  | .affected => 1

/-- `sr_py_rpm_package_get_role` (python/py_rpm_package.c:197-201). -/
def getRole (p : Package) : Int := roleNumber p.role

/-- `sr_py_rpm_package_set_role` (python/py_rpm_package.c:203-225). -/
def setRole (rhs : Option Value) (p : Package) : Except Exc Package :=
  match setChoice [0, 1] rhs with
  | .error e => .error e
  | .ok z => .ok { p with role := roleOf z }

/-! ## Operating systems -/

/-- `sr_py_operating_system_new` (python/py_operating_system.c:101-126). -/
def osNew (args : List Value) : Except Exc Os.OperatingSystem :=
  if args.length > 3 then .error .type
  else
    match parseArgs [false, false, false] args with
    | .error e => .error e
    | .ok l => .ok { name := textAt l 0, version := textAt l 1, architecture := textAt l 2 }

/-- A part of the text with what is around it. -/
def around (l r : Str) : Option Str → Str
  | none => []
  | some s => l ++ s ++ r

/-- `sr_py_operating_system_str` (python/py_operating_system.c:138-160). -/
def osStr (o : Os.OperatingSystem) : Str :=
  o.name.getD c!"(unknown)" ++ around c!" " [] o.version ++ around c!" (" c!")" o.architecture ++ around c!", CPE: " [] o.cpe

/-! ## Shared libraries -/

/-- `sr_py_gdb_sharedlib_str` (python/py_gdb_sharedlib.c:109-113). -/
def libStr (l : Sharedlib) : Str := l.soname.getD c!"Unknown shared library"

/-- `sr_py_gdb_sharedlib_get_symbols` (python/py_gdb_sharedlib.c:117-121). -/
def getSymbols (l : Sharedlib) : Int := l.symbols

/-- `sr_py_gdb_sharedlib_set_symbols` (python/py_gdb_sharedlib.c:123-145); SYMS_OK, SYMS_WRONG and SYMS_NOT_FOUND are 0, 1 and 2
(include/gdb/sharedlib.h:35-40). -/
def setSymbols (rhs : Option Value) (l : Sharedlib) : Except Exc Sharedlib :=
  match setChoice [0, 1, 2] rhs with
  | .error e => .error e
  | .ok z => .ok { l with symbols := z }

end Satyr.Py.Objects
