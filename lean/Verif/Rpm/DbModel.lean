import Verif.Rpm.Model
/-!
# Model of looking up packages in the rpm database (lib/rpm.c)

What librpm delivers is the input. Memory of librpm and of packages is counted, since what is allocated here is used only by these
functions. Memory allocation succeeds. `rpmReadConfigFiles` fails or not; an iterator over no matches is NULL, for which the other
functions do nothing.
-/
namespace Satyr.Rpm.Db
open Satyr.CStr Satyr.Rpm

/-- What `headerGet` and `rpmtdGetString` or `rpmtdGetUint32` find for a tag: nothing, data of another type, or a value. -/
inductive Tag (α : Type)
  | missing
  | badType
  | value (x : α)
  deriving DecidableEq, Repr

/-- The header of an installed package. -/
structure Header where
  name : Tag Str := .missing
  epoch : Tag Nat := .missing
  version : Tag Str := .missing
  release : Tag Str := .missing
  architecture : Tag Str := .missing
  installTime : Tag Nat := .missing
  deriving DecidableEq, Repr

/-- What is allocated: containers for data of tags, transaction sets, iterators, packages; and the text `*error_message` points to. -/
structure World where
  tagData : Nat := 0
  sets : Nat := 0
  iterators : Nat := 0
  packages : Nat := 0
  message : Option Str := none
  deriving DecidableEq, Repr

/-- `header_get_string` (lib/rpm.c:276-294) and `header_get_uint32` (lib/rpm.c:296-316). -/
def headerGet {α : Type} (t : Tag α) (w : World) : Option α × World :=
  let w := { w with tagData := w.tagData + 1 }
  match t with
  | .missing => (none, w)
  | .badType => (none, { w with tagData := w.tagData - 1 })
  | .value x => (some x, { w with tagData := w.tagData - 1 })

/-- A message is set and the package is freed. -/
def fail (m : Str) (w : World) : Option Package × World := (none, { w with packages := w.packages - 1, message := some m })

/-- `header_to_rpm_info` (lib/rpm.c:318-375). -/
def headerToPackage (h : Header) (w : World) : Option Package × World :=
  let w := { w with packages := w.packages + 1 }
  match headerGet h.name w with
  | (none, w) => fail c!"Failed to find package name." w
  | (some name, w) =>
  match headerGet h.epoch w with
  | (none, w) => fail c!"Failed to find package epoch." w
  | (some epoch, w) =>
  match headerGet h.version w with
  | (none, w) => fail c!"Failed to find package version." w
  | (some version, w) =>
  match headerGet h.release w with
  | (none, w) => fail c!"Failed to find package release." w
  | (some release, w) =>
  match headerGet h.architecture w with
  | (none, w) => fail c!"Failed to find package architecture." w
  | (some architecture, w) =>
  match headerGet h.installTime w with
  | (none, w) => fail c!"Failed to find package installation time." w
  | (some installTime, w) =>
    (some { name := some name, epoch := epoch, version := some version, release := some release,
            architecture := some architecture, installTime := installTime }, w)

/-- The loop (lib/rpm.c:400-412); `[]` stands for NULL. -/
def loop (result : List Package) : List Header → World → List Package × World
  | [], w => (result, w)
  | h :: hs, w =>
    match headerToPackage h w with
    | (none, w) => ([], { w with packages := w.packages - result.length })
    | (some p, w) => loop (result ++ [p]) hs w

/-- `sr_rpm_package_get_by_name` (lib/rpm.c:382-421) and `sr_rpm_package_get_by_path` (lib/rpm.c:423-463), which differ only in the
tag that is searched: `found` are the headers that match. `haveRpm` is `HAVE_LIBRPM`. -/
def lookup (haveRpm config : Bool) (found : List Header) (w : World) : List Package × World :=
  if haveRpm = false then ([], { w with message := some c!"satyr compiled without rpm" })
  else if config = false then ([], { w with message := some c!"Failed to read RPM configuration files." })
  else
    let w := { w with sets := w.sets + 1, iterators := w.iterators + 1 }
    let r := loop [] found w
    (r.1, { r.2 with sets := r.2.sets - 1, iterators := r.2.iterators - 1 })

end Satyr.Rpm.Db
