import Verif.Report.Model
import Verif.Os.Model
import Verif.Rpm.Model
import Verif.Json.CoreModel
import Verif.Text.PythonModel
import Verif.Text.RubyModel
import Verif.Text.JavaModel
import Verif.Text.KoopsModel
import Verif.Short.Model
/-!
# Model of reading ABRT problem directories (lib/abrt.c)

A directory is modelled by what can be observed of its files: whether a file exists, and its contents up to the first null
character if it can be read. The files do not change while the directory is read. `*error_message` is modelled by whether it has
been assigned; its text and memory leaks are not modelled.
-/
namespace Satyr.Abrt
open Satyr.CStr Satyr.Frames Satyr.Report
open Satyr.Normalize (CoreFrame)

/-- A problem directory. -/
structure Dir where
  /-- `access (path, F_OK) == 0` -/
  exist : Str → Bool
  /-- The contents of a file, if it can be read (`sr_file_to_string`, lib/utils.c:152-204). -/
  contents : Str → Option Str

/-- A function with a result that may be null, that may assign `*error_message`. The state says whether that has been done. -/
def M (α : Type) : Type := Bool → Out (Option α × Bool)

namespace M
variable {α β : Type}

/-- A result. -/
def ret (a : α) : M α := fun m => .ok (some a, m)
/-- Return of a null result. -/
def fail : M α := fun m => .ok (none, m)
/-- Return of a null result after `*error_message` has been assigned. -/
def error : M α := fun _ => .ok (none, true)
/-- The next step if the result is not null. -/
def andThen (x : M α) (f : α → M β) : M β := fun m => do
  let r ← x m
  match r.1 with
  | none => .ok (none, r.2)
  | some a => f a r.2
/-- A result that may be null. -/
def attempt (x : M α) : M (Option α) := fun m => do
  let r ← x m
  .ok (some r.1, r.2)
/-- A function that does not assign `*error_message`. -/
def lift (x : Out α) : M α := fun m => do
  let a ← x
  .ok (some a, m)

instance : Monad M where
  pure := ret
  bind := andThen

end M

/-- `file_contents` (lib/abrt.c:44-52). -/
def file (d : Dir) (name : Str) : M Str :=
  match d.contents name with
  | some s => M.ret s
  | none => M.error

/-- `is_packaged` (lib/abrt.c:391-408). -/
def isPackaged (d : Dir) : Bool := d.exist c!"package"

/-! ## Packages -/

/-- `strip_newline` (lib/abrt.c:288-294). -/
def stripNewline (s : Str) : Str := s.takeWhile (· ≠ '\n')

/-- `rpm_pkg_from_dir` (lib/abrt.c:296-337). All four files are read before the results are looked at. -/
def package (d : Dir) : M Rpm.Package := do
  let e ← file d c!"pkg_epoch"
  let epoch := (strtoull 10 e).value
  if epoch = 2 ^ 64 - 1 then M.error else do
  let name ← (file d c!"pkg_name").attempt
  let version ← (file d c!"pkg_version").attempt
  let release ← (file d c!"pkg_release").attempt
  let arch ← (file d c!"pkg_arch").attempt
  match name, version, release, arch with
  | some n, some v, some r, some a =>
    M.ret { epoch := epoch % 2 ^ 32, name := some (stripNewline n), version := some (stripNewline v), release := some (stripNewline r),
            architecture := some (stripNewline a), role := .affected }
  | _, _, _, _ => M.fail

variable (qsort : (Rpm.Package → Rpm.Package → Int) → List Rpm.Package → List Rpm.Package)

/-- The packages of the list of libraries, sorted into the other ones (lib/abrt.c:351-356). -/
def addDsos (packages dsos : List Rpm.Package) : Out (List Rpm.Package) :=
  if dsos = [] then .ok packages else do
  let s ← Rpm.sort qsort (packages ++ dsos)
  .ok (Rpm.uniq s)

/-- `rpm_dso_list_from_dir` (lib/abrt.c:339-362). The null pointer is the empty list. -/
def dsoPackages (d : Dir) (packages : List Rpm.Package) : M (List Rpm.Package) := do
  let t ← (file d c!"dso_list").attempt
  match t with
  | none => M.ret packages
  | some t => do
    let dsos ← M.lift (Rpm.parseDsoList t)
    M.lift (addDsos qsort packages dsos)

/-- The package of the interpreter (lib/abrt.c:373-385). If the epoch is not a number, memory is freed twice, as in the parser of
the list of libraries. -/
def interpreter (packages : List Rpm.Package) (text : Str) : Out (List Rpm.Package) :=
  match Rpm.parseNevra text with
  | .ok n e v r a => .ok (packages ++ [{ name := some n, epoch := e, version := some v, release := some r, architecture := some a }])
  | .fail => .ok packages
  | .failDangling => .ub

/-- `rpm_interpreter_from_dir` (lib/abrt.c:364-389). -/
def interpreterPackage (d : Dir) (packages : List Rpm.Package) : M (List Rpm.Package) := do
  let t ← (file d c!"interpreter").attempt
  match t with
  | none => M.ret packages
  | some t => M.lift (interpreter packages t)

/-- The package itself (lib/abrt.c:414-421). -/
def ownPackage (d : Dir) : M (List Rpm.Package) :=
  if isPackaged d then do
    let p ← package d
    M.ret [p]
  else M.ret []

/-- The packages of the libraries (lib/abrt.c:423-429): the function fails if there are no packages at all. -/
def libraryPackages (d : Dir) (packages : List Rpm.Package) : M (List Rpm.Package) :=
  if d.exist c!"dso_list" then do
    let ps ← dsoPackages qsort d packages
    if ps = [] then M.fail else M.ret ps
  else M.ret packages

/-- `sr_abrt_rpm_packages_from_dir` (lib/abrt.c:410-436). -/
def packages (d : Dir) : M (List Rpm.Package) := do
  let ps ← ownPackage d
  let ps ← libraryPackages qsort d ps
  if d.exist c!"interpreter" then interpreterPackage d ps else M.ret ps

/-! ## Desktop, number of occurrences, component, operating system -/

/-- The search for the variable (lib/abrt.c:446-468). -/
def desktopOf (environ : Str) : Option Str :=
  match strstrI c!"DESKTOP_SESSION=" environ with
  | none => none
  | some i =>
    if i ≠ 0 ∧ environ[i - 1]? ≠ some '\n' then none
    else some ((environ.drop (i + c!"DESKTOP_SESSION=".length)).takeWhile (· ≠ '\n'))

/-- `desktop_from_dir` (lib/abrt.c:438-469). -/
def desktop (d : Dir) : M Str := do
  let e ← file d c!"environ"
  match desktopOf e with
  | some x => M.ret x
  | none => M.fail

/-- Result of `strtol`. -/
structure Strtol where
  value : Int
  /-- `errno` was set to `ERANGE` -/
  range : Bool
  rest : Str
  deriving Repr, DecidableEq

/-- The C library function `strtol` for base 10 (64-bit `long`): white space, sign, maximal run of digits; values outside of the
range are clamped. Without digits nothing is read. -/
def strtol (s : Str) : Strtol :=
  let s1 := s.dropWhile isSpace
  let s2 := if peek s1 = '-' ∨ peek s1 = '+' then s1.tail else s1
  let ds := s2.takeWhile IsDec
  if ds = [] then ⟨0, false, s⟩ else
  let v : Int := if peek s1 = '-' then - (ofDigits 10 ds : Int) else ofDigits 10 ds
  if v > 2 ^ 63 - 1 then ⟨2 ^ 63 - 1, true, s2.dropWhile IsDec⟩
  else if v < - 2 ^ 63 then ⟨- 2 ^ 63, true, s2.dropWhile IsDec⟩
  else ⟨v, false, s2.dropWhile IsDec⟩

/-- The value of `ERANGE`. -/
def erange : Nat := 34

/-- The checks of `occurrences_from_dir` (lib/abrt.c:480-511). `errno` is what it was before `strtol` was called: it is not
reset here, and every file looked for in vain before (such as `dso_list` or `interpreter`) leaves `ENOENT` in it. -/
def occurrencesOf (errno : Nat) (s : Str) : Option Nat :=
  let r := strtol s
  let errno := if r.range then erange else errno
  if (errno = erange ∧ (r.value = 2 ^ 63 - 1 ∨ r.value = - 2 ^ 63)) ∨ (errno ≠ 0 ∧ r.value = 0) then none
  else if r.rest = s then none
  else if r.rest ≠ [] then none
  else if r.value < 0 ∨ r.value > 2 ^ 32 - 1 then none
  else some r.value.toNat

/-- `occurrences_from_dir` (lib/abrt.c:471-516). -/
def occurrences (d : Dir) (errno : Nat) : M Nat := do
  let s ← file d c!"count"
  match occurrencesOf errno s with
  | some n => M.ret n
  | none => M.error

/-- `get_component` (lib/abrt.c:518-545). -/
def component (d : Dir) : M Str :=
  if isPackaged d then file d c!"component"
  else if d.exist c!"executable" then do
    let e ← file d c!"executable"
    M.ret (Short.baseName e ++ c!"-unpackaged")
  else M.fail

/-- The part of `sr_abrt_operating_system_from_dir` that reads `os_info` (lib/abrt.c:554-559). -/
def osInfo : Option Str → Bool × Os.OperatingSystem
  | none => (false, {})
  | some t => Os.parseEtcOsRelease t {}

/-- The part that reads `os_release` (lib/abrt.c:562-573). Name and version are overwritten, the other members stay. -/
def osRelease (os : Os.OperatingSystem) : Option Str → Option Os.OperatingSystem
  | none => none
  | some t => (Os.parseSystemRelease t).map fun r => { os with name := some r.1, version := some r.2 }

/-- Name and version (lib/abrt.c:551-580). -/
def osVersion (d : Dir) : M Os.OperatingSystem := do
  let i ← (file d c!"os_info").attempt
  let r := osInfo i
  if r.1 then M.ret r.2 else do
  let t ← (file d c!"os_release").attempt
  match osRelease r.2 t with
  | some os => M.ret os
  | none => M.error

/-- `sr_abrt_operating_system_from_dir` (lib/abrt.c:547-593). -/
def operatingSystem (d : Dir) : M Os.OperatingSystem := do
  let os ← osVersion d
  let arch ← file d c!"architecture"
  let desk ← (desktop d).attempt
  M.ret { os with architecture := some arch, desktop := desk }

/-! ## The report -/

/-- `sr_core_stacktrace_from_json_text` (lib/core_stacktrace.c:226-251). -/
def coreFromText (s : Str) : Option CoreTrace := (Json.parse s).bind Json.Core.fromJson

/-- What a parser returns; the message is the location if there is no stack trace. -/
def parsed {α : Type} (r : Out (Option (α × Str))) (f : α → Stacktrace) : M Stacktrace := do
  let x ← M.lift r
  match x with
  | some y => M.ret (f y.1)
  | none => M.error

/-- The stack trace of a problem of a type (lib/abrt.c:639-842). The type is never JavaScript (`sr_abrt_type_from_type`), so the
branch for it (lib/abrt.c:784-842) is not modelled. A kernel oops is never null. -/
def stacktrace (d : Dir) (type : ReportType) : M (Option Stacktrace) :=
  match type with
  | .core => do
    let t ← file d c!"core_backtrace"
    match coreFromText t with
    | some s => M.ret (some (.core s))
    | none => M.error
  | .python => do
    let t ← file d c!"backtrace"
    let s ← parsed (Text.Python.parse t) .python
    M.ret (some s)
  | .kerneloops => do
    let k ← file d c!"kernel"
    let t ← file d c!"backtrace"
    let s ← M.lift (Text.Koops.parseTrace t)
    M.ret (some (.koops { s.1 with version := some k }))
  | .java => do
    let t ← file d c!"backtrace"
    let s ← parsed (Text.Java.parseThread t) fun th => .java { threads := [th] }
    M.ret (some s)
  | .ruby => do
    let t ← file d c!"backtrace"
    let s ← parsed (Text.Ruby.parse t) .ruby
    M.ret (some s)
  | _ => M.ret none

/-- `sr_abrt_report_from_dir` (lib/abrt.c:595-845). `name` and `version` are those of the program (lib/report.c:64-65). -/
def report (name version : Str) (errno : Nat) (d : Dir) : M UReport := do
  let t ← file d c!"type"
  let type := abrtType t
  let os ← operatingSystem d
  let component ← (component d).attempt
  let packages ← packages qsort d
  let serial ← occurrences d errno
  let st ← stacktrace d type
  M.ret { type, reporterName := name, reporterVersion := version, os := some os, component, packages, stacktrace := st, serial }

/-! ## Writing a core stack trace -/

/-- `fulfill_missing_values` (lib/abrt.c:79-86) for one frame. -/
def fulfillFrame (f : CoreFrame) : CoreFrame :=
  match f.fileName, f.functionName with
  | none, some n => if strcmp c!"__kernel_vsyscall" n = 0 then { f with fileName := some c!"kernel" } else f
  | _, _ => f

/-- The inner loop of `fulfill_missing_values` (lib/abrt.c:77-86). -/
def fulfillFrames : List CoreFrame → List CoreFrame
  | [] => []
  | f :: fs => fulfillFrame f :: fulfillFrames fs

/-- The outer loop of `fulfill_missing_values` (lib/abrt.c:74-88). -/
def fulfillThreads : List CoreThread → List CoreThread
  | [] => []
  | t :: ts => { t with frames := fulfillFrames t.frames } :: fulfillThreads ts

/-- `fulfill_missing_values` (lib/abrt.c:71-89). -/
def fulfill (t : CoreTrace) : CoreTrace := { t with threads := fulfillThreads t.threads }

/-- What is written to `core_backtrace` (lib/abrt.c:116-128), and what the hook returns (lib/abrt.c:179-189). -/
def coreBacktrace (t : CoreTrace) : Str := Json.Core.toJson (fulfill t) ++ c!"\n"

/-- A directory after a file has been written (`sr_string_to_file`, lib/utils.c:206-249). -/
def Dir.write (d : Dir) (name text : Str) : Dir where
  exist n := if n = name then true else d.exist n
  contents n := if n = name then some text else d.contents n

end Satyr.Abrt
