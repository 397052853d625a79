import Verif.Py.Lists
import Verif.Report.Model
/-!
# Model of the Python class `Report`

An object has a C report and the Python attributes `packages`, `operating_system` and `stacktrace`. Before the report is written
as JSON, the pointers of the C report are set from these attributes. Memory is not exhausted.
-/
namespace Satyr.Py

open Satyr.Report
open Satyr.CStr (Str)

/-- The value of an attribute: `None`, an object of the class for the attribute, or another object. -/
inductive Member (α : Type) where
  | none
  | obj (a : α)
  | other

/-- A stack trace in Python: the C structure (`stacktrace->stacktrace`, `stacktrace->thread`), and what the Python lists of its
threads and frames say now. Its class is the one of the C structure. -/
structure PyTrace where
  c : Stacktrace
  lists : Stacktrace

/-- `struct sr_py_report` (python/py_report.h:37-44). The packages of `c` are not used: the C report has the address `ptr`, and
`State.frames` gives its first package (`rpm_packages`). `packages` is `none` if the attribute is not a list. -/
structure ReportObj where
  c : UReport
  ptr : CPtr
  packages : Option (List Object)
  os : Member Os.OperatingSystem
  trace : Member PyTrace

/-- A package becomes the first one of the report, or the one after the previous (python/py_report.c:199-202). -/
def linkPackage (report : CPtr) (prev : Option Object) (x : Object) (s : State) : State :=
  match prev with
  | none => s.setFrames report (s.cOf x)
  | some p => s.setNext (s.cOf p) (s.cOf x)

/-- The loop of `rpms_prepare_linked_list` (python/py_report.c:178-212); `ok` is the type check. False is the exception. -/
def packagesLoop (ok : Object → Bool) (report : CPtr) : List Object → Option Object → State → Bool × State
  | [], prev, s => (true, finish prev s)
  | x :: l, prev, s =>
    let s := s.addRef x 1
    if ok x = false then (false, (s.addRef x (-1)).addRefOpt prev (-1))
    else packagesLoop ok report l (some x) ((linkPackage report prev x s).addRefOpt prev (-1))

/-- `rpms_prepare_linked_list` (python/py_report.c:169-215). -/
def preparePackages (ok : Object → Bool) (r : ReportObj) (s : State) : Bool × State :=
  match r.packages with
  | none => (false, s)
  | some items => packagesLoop ok r.ptr items none s

/-- The operating system (python/py_report.c:247-262); `none` is the exception. -/
def prepareOs : Member Os.OperatingSystem → Option (Option Os.OperatingSystem)
  | .none => some none
  | .obj o => some (some o)
  | .other => none

/-- `stacktrace_prepare` (python/py_report.c:217-238), for a class of stack traces; `none` is the exception. -/
def checkTrace (isClass : Stacktrace → Bool) : Member PyTrace → Option (Option Stacktrace)
  | .obj t => if isClass t.c = true then some (some t.c) else none
  | _ => none

def isCore : Stacktrace → Bool
  | .core _ => true
  | _ => false
def isJava : Stacktrace → Bool
  | .java _ => true
  | _ => false
def isPython : Stacktrace → Bool
  | .python _ => true
  | _ => false
def isKoops : Stacktrace → Bool
  | .koops _ => true
  | _ => false
def isRuby : Stacktrace → Bool
  | .ruby _ => true
  | _ => false

/-- The stack trace (python/py_report.c:264-297). -/
def prepareTrace (type : ReportType) : Member PyTrace → Option (Option Stacktrace)
  | .none => some none
  | t =>
    match type with
    | .core => checkTrace isCore t
    | .java => checkTrace isJava t
    | .python => checkTrace isPython t
    | .kerneloops => checkTrace isKoops t
    | .ruby => checkTrace isRuby t
    | _ => some none

/-- `report_prepare_subobjects` (python/py_report.c:240-300). What was set before an exception stays. -/
def prepare (ok : Object → Bool) (r : ReportObj) (s : State) : Bool × ReportObj × State :=
  match preparePackages ok r s with
  | (false, s) => (false, r, s)
  | (true, s) =>
    match prepareOs r.os with
    | none => (false, r, s)
    | some o =>
      match prepareTrace r.c.type r.trace with
      | none => (false, { r with c := { r.c with os := o } }, s)
      | some t => (true, { r with c := { r.c with os := o, stacktrace := t } }, s)

/-- The packages that the library sees from a pointer on; `n` bounds their number; `pkg` are the contents of the C structures. -/
def walk (pkg : CPtr → Rpm.Package) (next : CPtr → CPtr) : Nat → CPtr → Option (List Rpm.Package)
  | 0, _ => none
  | n + 1, p => if p = 0 then some [] else (walk pkg next n (next p)).map (pkg p :: ·)

/-- The C report that the library sees. -/
def seen (n : Nat) (pkg : CPtr → Rpm.Package) (r : ReportObj) (s : State) : Option UReport :=
  (walk pkg s.next n (s.frames r.ptr)).map fun l => { r.c with packages := l }

/-- `sr_py_report_to_json` (python/py_report.c:493-507): the text, or `none` for an exception. A linked list without an end is read
forever, which is not defined. -/
def reportToJson (n : Nat) (ok : Object → Bool) (pkg : CPtr → Rpm.Package) (r : ReportObj) (s : State) :
    Out (Option Str × ReportObj × State) :=
  match prepare ok r s with
  | (false, r, s) => .ok (none, r, s)
  | (true, r, s) =>
    match seen n pkg r s with
    | none => .ub
    | some c =>
      match toJson c with
      | .ok t => .ok (some t, r, s)
      | .abort => .abort
      | .ub => .ub

/-- The stack trace of a new object (python/py_report.c:334-373); the Python lists say what the C structure has (C106). -/
def wrapTrace (type : ReportType) : Option Stacktrace → Member PyTrace
  | none => .none
  | some t =>
    match type with
    | .core => .obj ⟨t, t⟩
    | .java => .obj ⟨t, t⟩
    | .python => .obj ⟨t, t⟩
    | .kerneloops => .obj ⟨t, t⟩
    | .ruby => .obj ⟨t, t⟩
    | _ => .none

def wrapOs : Option Os.OperatingSystem → Member Os.OperatingSystem
  | none => .none
  | some o => .obj o

/-- `report_to_python_obj` with `rpms_to_python_list` (python/py_report.c:145-167, 302-376); the latter is the same loop as the one
for frames. `n` bounds the number of packages, and new objects are `free`, `free + 1`, .... -/
def reportObj (n : Nat) (free : Object) (c : UReport) (ptr : CPtr) (s : State) : Option (ReportObj × State) :=
  (toList n (s.frames ptr) free s).map fun (l, s) =>
    ({ c := c, ptr := ptr, packages := some l, os := wrapOs c.os, trace := wrapTrace c.type c.stacktrace }, s)

/-- `sr_py_report_set_type` (python/py_report.c:468-491) with a string that has no NUL characters; `none` is the exception. -/
def setType (r : ReportObj) (v : Str) : Option ReportObj :=
  let n := typeFromString (some v)
  if n = ReportType.code .invalid then none else some { r with c := { r.c with type := ReportType.ofCode n } }

/-- `sr_py_report_get_type` (python/py_report.c:456-466). -/
def getType (r : ReportObj) : Str := typeToString r.c.type.code

/-- `PyDict_SetItemString`: a key that is in the dictionary keeps its place. -/
def dictSet (k v : Str) : List (Str × Str) → List (Str × Str)
  | [] => [(k, v)]
  | e :: l => if e.1 = k then (k, v) :: l else e :: dictSet k v l

/-- `sr_py_report_get_auth` (python/py_report.c:509-527). -/
def getAuth (r : ReportObj) : List (Str × Str) := r.c.auth.foldl (fun d e => dictSet e.1 e.2 d) []

/-- `sr_py_report_str` (python/py_report.c:431-448). -/
def reportStr (r : ReportObj) : Str :=
  c!"Report, type: " ++ (typeToString r.c.type.code ++
    match r.c.component with
    | none => []
    | some s => c!", component: " ++ s)

end Satyr.Py
