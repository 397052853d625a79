import Verif.Report.Reason
import Verif.Json.PackageModel
import Verif.Json.CoreModel
import Verif.Json.KoopsModel
/-!
# Model of reports (lib/report.c) and of the report types (lib/report.c, lib/abrt.c)
-/
namespace Satyr.Report
open Satyr.CStr Satyr.Frames Satyr.Json

/-! ## Report types -/

/-- `enum sr_report_type` (include/report_type.h:32-45). -/
inductive ReportType where
  | invalid | core | python | kerneloops | java | gdb | ruby | javascript
  deriving Repr, DecidableEq

/-- The value of the enumerator. -/
def ReportType.code : ReportType → Int
  | .invalid => 0 | .core => 1 | .python => 2 | .kerneloops => 3 | .java => 4 | .gdb => 5 | .ruby => 6 | .javascript => 7

/-- `report_types` (lib/report.c:36-47); the entry after the last is NULL. -/
def typeNames : List Str :=
  [c!"invalid", c!"core", c!"python", c!"kerneloops", c!"java", c!"gdb", c!"ruby", c!"javascript"]

/-- The loop of `sr_report_type_from_string` (lib/report.c:297-301). -/
def fromStringLoop (s : Option Str) (i : Int) : List Str → Int
  | [] => 0
  | n :: l => if strcmp0 (some n) s = 0 then i else fromStringLoop s (i + 1) l

/-- `sr_report_type_from_string` (lib/report.c:293-303). -/
def typeFromString (s : Option Str) : Int := fromStringLoop s 0 typeNames

/-- `sr_report_type_to_string` (lib/report.c:305-312); an enumeration can hold any number. -/
def typeToString (n : Int) : Str :=
  if n < 0 ∨ n ≥ 8 then c!"invalid" else typeNames.getD n.toNat []

/-- `sr_abrt_type_from_type` (lib/abrt.c:847-862); `strncmp(type, name, strlen(name)) == 0` says that `type` starts with
`name`. -/
def abrtType (s : Str) : ReportType :=
  if startsWith s c!"CCpp" then .core
  else if startsWith s c!"Python" then .python
  else if startsWith s c!"Kerneloops" then .kerneloops
  else if startsWith s c!"Java" then .java
  else if startsWith s c!"Ruby" then .ruby
  else .invalid

/-- The enumerator with a value. -/
def ReportType.ofCode (n : Int) : ReportType :=
  if n = 1 then .core else if n = 2 then .python else if n = 3 then .kerneloops else if n = 4 then .java
  else if n = 5 then .gdb else if n = 6 then .ruby else if n = 7 then .javascript else .invalid

/-! ## Stack traces of any type -/

/-- `struct sr_stacktrace`, whose first member is the type. -/
inductive Stacktrace where
  | core (t : CoreTrace)
  | python (t : PythonTrace)
  | koops (t : KoopsTrace)
  | java (t : JavaTrace)
  | gdb (t : GdbTrace)
  | ruby (t : RubyTrace)
  | js (t : JsTrace)
  deriving DecidableEq

/-- `sr_stacktrace_to_json` (lib/generic_stacktrace.c:141-145); `none` is NULL (lib/gdb_stacktrace.c:64). -/
def traceToJson : Stacktrace → Option Str
  | .core t => some (Core.toJson t)
  | .python t => some (Python.toJson t)
  | .koops t => some (Koops.toJson t)
  | .java t => some (Java.toJson t)
  | .gdb _ => none
  | .ruby t => some (Ruby.toJson t)
  | .js t => some (Js.toJson t)

/-- `sr_stacktrace_get_reason` (lib/generic_stacktrace.c:147-151); `none` is NULL (lib/gdb_stacktrace.c:66). -/
def traceReason : Stacktrace → Out (Option Str)
  | .core t => do return some (← coreReason t)
  | .python t => do return some (← pythonReason t)
  | .koops t => do return some (← koopsReason t)
  | .java t => do return some (← javaReason t)
  | .gdb _ => .ok none
  | .ruby t => do return some (← rubyReason t)
  | .js t => do return some (← jsReason t)

/-- The `switch` of `sr_report_from_json` (lib/report.c:396-409); `none` is NULL. -/
def traceFromJson (type : ReportType) (j : Value) : Out (Option Stacktrace) :=
  match type with
  | .core => .ok ((Core.fromJson j).map .core)
  | .python => .ok ((Python.fromJson j).map .python)
  | .kerneloops => do return (← Koops.fromJson j).map .koops
  | .java => .ok ((Java.fromJson j).map .java)
  | .ruby => .ok ((Ruby.fromJson j).map .ruby)
  | _ => .ok none

/-! ## Reports -/

/-- `struct sr_report` (include/report.h:46-68). The names of the reporter are never NULL (they are asserted not to be). -/
structure UReport where
  version : Nat := 2
  type : ReportType := .invalid
  reporterName : Str
  reporterVersion : Str
  userRoot : Bool := false
  userLocal : Bool := true
  os : Option Os.OperatingSystem := none
  component : Option Str := none
  packages : List Rpm.Package := []
  stacktrace : Option Stacktrace := none
  auth : List (Str × Str) := []
  serial : Nat := 0
  deriving DecidableEq

/-- `dismantle_object` (lib/report.c:112-124). -/
def dismantle (s : Str) : Out Str :=
  if s = [] then .ub
  else if s.head? ≠ some '{' ∨ s.getLast? ≠ some '}' then .abort
  else .ok (',' :: (s.drop 1).dropLast)

/-- The members of the stack trace (lib/report.c:157-164). -/
def traceMembers : Option Stacktrace → Out Str
  | none => .ok []
  | some t =>
    match traceToJson t with
    | none => .abort
    | some s => dismantle s

/-- `true` or `false`. -/
def boolText (b : Bool) : Str := if b then c!"true" else c!"false"

/-- The member about the user (lib/report.c:144-153). -/
def userMember (r : UReport) : Str :=
  if r.type ≠ .kerneloops then
    c!",   \"user\": {   \"root\": " ++ (boolText r.userRoot ++ (c!"\n            ,   \"local\": " ++
    (boolText r.userLocal ++ c!"\n            }\n")))
  else []

/-- `problem_object_string` (lib/report.c:128-169). -/
def problemText (r : UReport) (type : Str) : Out Str := do
  let trace ← traceMembers r.stacktrace
  return c!"{   \"type\": " ++ (escaped type ++ (c!"\n" ++
    (strMember c!",   \"component\": " r.component ++ (userMember r ++
    (numMember c!",   \"serial\": " r.serial ++ (trace ++ c!"}"))))))

/-- The types whose stack traces are written with a reason (lib/report.c:193-200). -/
def ReportType.supported : ReportType → Bool
  | .invalid => false
  | .gdb => false
  | _ => true

/-- The text of the type (lib/report.c:184-201). -/
def typeText (r : UReport) : Str := if r.type.supported then typeToString r.type.code else c!"invalid"

/-- The reason (lib/report.c:184-201). `sr_stacktrace_get_reason` reads the stack trace, and `sr_json_append_escaped` reads the
reason: null pointers are undefined behaviour. -/
def reasonText (r : UReport) : Out Str :=
  if r.type.supported then
    match r.stacktrace with
    | none => .ub
    | some t => do
      match ← traceReason t with
      | none => .ub
      | some s => .ok s
  else .ok c!"invalid"

/-- The reporter (lib/report.c:211-220). -/
def reporterText (r : UReport) : Str :=
  c!"{   \"name\": \"" ++ (r.reporterName ++ (c!"\"\n,   \"version\": \"" ++ (r.reporterVersion ++ c!"\"\n}")))

/-- The entries after the first (lib/report.c:275-285). -/
def authRest : List (Str × Str) → Str
  | [] => []
  | e :: l => c!"            ,   " ++ (escaped e.1 ++ (c!": " ++ (escaped e.2 ++ (c!"\n" ++ authRest l))))

/-- The authentication entries (lib/report.c:261-287). -/
def authMember : List (Str × Str) → Str
  | [] => []
  | e :: l => c!",   \"auth\": {   " ++ (escaped e.1 ++ (c!": " ++ (escaped e.2 ++ (c!"\n" ++
      (authRest l ++ c!"            } ")))))

/-- The operating system (lib/report.c:222-233). -/
def osMember : Option Os.OperatingSystem → Str
  | none => []
  | some os => c!",   \"os\": " ++ (indentExceptFirst 10 (Os.toJson os) ++ c!"\n")

/-- The packages (lib/report.c:245-258). -/
def packagesMember (l : List Rpm.Package) : Str :=
  if l ≠ [] then c!",   \"packages\": " ++ (indentExceptFirst 16 (Rpm.listToJson l) ++ c!"\n")
  else c!",   \"packages\": []\n"

/-- `sr_report_to_json` (lib/report.c:171-291). -/
def toJson (r : UReport) : Out Str := do
  let reason ← reasonText r
  let problem ← problemText r (typeText r)
  return numMember c!"{   \"ureport_version\": " r.version ++
    (c!",   \"reason\": " ++ (escaped reason ++ (c!"\n" ++
    (c!",   \"reporter\": " ++ (indentExceptFirst 16 (reporterText r) ++ (c!"\n" ++
    (osMember r.os ++
    (c!",   \"problem\": " ++ (indentExceptFirst 15 problem ++ (c!"\n" ++
    (packagesMember r.packages ++
    (authMember r.auth ++ c!"}"))))))))))))

/-! ## Reading -/

/-- Adding a member to a JSON object: the value of an existing member is replaced. -/
def addEntry (k : Str) (v : Value) : List (Str × Value) → List (Str × Value)
  | [] => [(k, v)]
  | e :: l => if e.1 = k then (k, v) :: l else e :: addEntry k v l

/-- The entries of the table of a JSON object, from head to tail. -/
def entries (l : List (Str × Value)) : List (Str × Value) := l.foldl (fun acc m => addEntry m.1 m.2 acc) []

/-- The loop over the authentication entries (lib/report.c:422-440), from the tail to the head; entries that are not strings
are skipped; `sr_report_add_auth` (lib/report.c:97-109) puts the new entry first. -/
def readAuthLoop (acc : List (Str × Str)) : List (Str × Value) → List (Str × Str)
  | [] => acc
  | (k, .str s) :: l => readAuthLoop ((k, s) :: acc) l
  | _ :: l => readAuthLoop acc l

/-- The authentication entries (lib/report.c:413-441). -/
def readAuth (j : Value) : Option (List (Str × Str)) :=
  match get j c!"auth" with
  | none => some []
  | some (.obj l) => some (readAuthLoop [] (entries l).reverse)
  | some _ => none

/-- The reporter (lib/report.c:327-340). -/
def readReporter (j : Value) (name version : Str) : Option (Str × Str) :=
  match get j c!"reporter" with
  | none => some (name, version)
  | some rep =>
    if isObject rep = false then none else
    (readStr rep c!"name" (some name)).bind fun n =>
    (readStr rep c!"version" (some version)).bind fun v =>
    some (n.getD name, v.getD version)

/-- The operating system (lib/report.c:342-350). -/
def readOs (j : Value) : Option (Option Os.OperatingSystem) :=
  match get j c!"os" with
  | none => some none
  | some o => (Os.fromJson o).map some

/-- The packages (lib/report.c:352-360). -/
def readPackages (j : Value) : Option (List Rpm.Package) :=
  match get j c!"packages" with
  | none => some []
  | some l => Rpm.listFromJson l

/-- The user (lib/report.c:378-390), which is looked for in `root`, the whole document. -/
def readUser (root : Value) (isRoot isLocal : Bool) : Option (Bool × Bool) :=
  match get root c!"user" with
  | none => some (isRoot, isLocal)
  | some u =>
    if isObject u = false then none else
    (readBool u c!"root" isRoot).bind fun a =>
    (readBool u c!"local" isLocal).bind fun b => some (a, b)

/-- The parts of the problem other than the stack trace (lib/report.c:366-394): type, component, user, serial. -/
def readProblem (root problem : Value) : Option (ReportType × Option Str × (Bool × Bool) × Nat) :=
  if isObject problem = false then none else
  (readStr problem c!"type" none).bind fun type =>
  (readStr problem c!"component" none).bind fun component =>
  (readUser root false true).bind fun user =>
  (readU32 problem c!"serial" 0).bind fun serial =>
  some (.ofCode (typeFromString type), component, user, serial)

/-- The problem (lib/report.c:361-411): the first `none` is a jump to `fail`. -/
def readProblemTrace (root : Value) :
    Out (Option (ReportType × Option Str × (Bool × Bool) × Nat × Option Stacktrace)) :=
  match get root c!"problem" with
  | none => .ok (some (.invalid, none, (false, true), 0, none))
  | some p =>
    match readProblem root p with
    | none => .ok none
    | some (type, component, user, serial) => do
      let trace ← traceFromJson type p
      return some (type, component, user, serial, trace)

/-- The parts before the problem (lib/report.c:317-360): version, reporter, operating system, packages. -/
def readHead (j : Value) (name version : Str) :
    Option (Nat × (Str × Str) × Option Os.OperatingSystem × List Rpm.Package) :=
  if isObject j = false then none else
  (readU32 j c!"ureport_version" 2).bind fun v =>
  (readReporter j name version).bind fun rep =>
  (readOs j).bind fun os =>
  (readPackages j).bind fun packages => some (v, rep, os, packages)

/-- `sr_report_from_json` (lib/report.c:314-448); `name` and `version` are `PACKAGE_NAME` and `PACKAGE_VERSION`. -/
def fromJson (name version : Str) (j : Value) : Out (Option UReport) :=
  match readHead j name version with
  | none => .ok none
  | some (v, rep, os, packages) => do
    match ← readProblemTrace j with
    | none => .ok none
    | some (type, component, user, serial, stacktrace) =>
      return (readAuth j).map fun auth =>
        { version := v, type, reporterName := rep.1, reporterVersion := rep.2, userRoot := user.1, userLocal := user.2,
          os, component, packages, stacktrace, auth, serial }

end Satyr.Report
