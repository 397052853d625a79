import Verif.Json.ScriptModel
import Verif.Rpm.Model
import Verif.Os.Model
/-!
# Model of the JSON form of RPM packages (lib/rpm.c) and operating systems (lib/operating_system.c)
-/
namespace Satyr.Json
open Satyr.CStr

namespace Rpm
open Satyr.Rpm

/-- The text of the role (lib/rpm.c:540-555); the model has no other roles. -/
def roleMember : Role → Str
  | .unknown => []
  | .affected => c!",   \"package_role\": \"affected\"\n"

/-- The members written for one package (lib/rpm.c:495-564); nothing is written for the consistency. -/
def packageBody (p : Package) : Str :=
  strMember c!",   \"name\": " p.name ++
  (numMember c!",   \"epoch\": " p.epoch ++
  (strMember c!",   \"version\": " p.version ++
  (strMember c!",   \"release\": " p.release ++
  (strMember c!",   \"architecture\": " p.architecture ++
  (nonzeroMember c!",   \"install_time\": " p.installTime ++
  roleMember p.role)))))

/-- `sr_rpm_package_to_json(package, false)` (lib/rpm.c:495-566). -/
def packageToJson (p : Package) : Str := finishObject (packageBody p)

/-- The loop over the packages (lib/rpm.c:473-491). -/
def listLoop (head : Str) : List Package → Str
  | [] => []
  | [p] => head ++ indentExceptFirst 2 (packageToJson p)
  | p :: q :: l => head ++ (indentExceptFirst 2 (packageToJson p) ++ '\n' :: listLoop c!", " (q :: l))

/-- `sr_rpm_package_to_json(package, true)` (lib/rpm.c:465-571). -/
def listToJson (l : List Package) : Str := listLoop c!"[ " l ++ c!" ]"

/-- The role (lib/rpm.c:592-612). -/
def readRole (j : Value) : Option Role :=
  match get j c!"package_role" with
  | none => some .unknown
  | some (.str s) => if strcmp s c!"affected" ≠ 0 then none else some .affected
  | some _ => none

/-- `single_rpm_package_from_json` (lib/rpm.c:573-619). -/
def packageFromJson (j : Value) : Option Package :=
  if isObject j = false then none else
  (readStr j c!"name" none).bind fun name =>
  (readStr j c!"version" none).bind fun version =>
  (readStr j c!"release" none).bind fun release =>
  (readStr j c!"architecture" none).bind fun architecture =>
  (readU32 j c!"epoch" 0).bind fun epoch =>
  (readU64 j c!"install_time" 0).bind fun installTime =>
  (readRole j).bind fun role =>
  some { name, epoch, version, release, architecture, installTime, role }

/-- `sr_rpm_package_from_json(.., json, true, ..)` (lib/rpm.c:620-660): `none` is a negative return value.
`sr_rpm_package_append` appends one package at the end. -/
def listFromJson (j : Value) : Option (List Package) :=
  match j with
  | .arr l => readAll packageFromJson l
  | _ => none

end Rpm

namespace Os
open Satyr.Os

/-- The members written by `sr_operating_system_to_json` (lib/operating_system.c:70-117). -/
def osBody (os : OperatingSystem) : Str :=
  strMember c!",   \"name\": " os.name ++
  (strMember c!",   \"version\": " os.version ++
  (strMember c!",   \"architecture\": " os.architecture ++
  (strMember c!",   \"cpe\": " os.cpe ++
  (strMember c!",   \"desktop\": " os.desktop ++
  (strMember c!",   \"variant\": " os.variant ++
  nonzeroMember c!",   \"uptime\": " os.uptime)))))

/-- `sr_operating_system_to_json` (lib/operating_system.c:65-126). -/
def toJson (os : OperatingSystem) : Str := finishSafely (osBody os)

/-- `sr_operating_system_from_json` (lib/operating_system.c:128-154): a desktop or variant that cannot be read is ignored. -/
def fromJson (j : Value) : Option OperatingSystem :=
  if isObject j = false then none else
  (readStr j c!"name" none).bind fun name =>
  (readStr j c!"version" none).bind fun version =>
  (readStr j c!"architecture" none).bind fun architecture =>
  (readU64 j c!"uptime" 0).bind fun uptime =>
  some { name, version, architecture, uptime, desktop := (readStr j c!"desktop" none).getD none,
         variant := (readStr j c!"variant" none).getD none }

end Os
end Satyr.Json
