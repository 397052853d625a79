import Verif.Heap.PackageModel
import Verif.Abrt.Model
/-!
# Model of memory: the packages of a problem directory (lib/abrt.c:44-52, 288-436)

`e` is the value of `*error_message`. The texts of messages are not modelled.
-/
namespace Satyr.Heap
open Satyr.CStr
open Satyr.Abrt (Dir stripNewline)

/-- `file_contents` (lib/abrt.c:44-52, lib/utils.c:152-204): the contents, or 0 and a message. The text of the path is modelled by
the name of the file. -/
def fileText (A : Allocator) (d : Dir) (name : Str) (m : Mem) (e : Ptr) : Out (Ptr × Mem × Ptr) :=
  (alloc A (.text name) m).bind fun (path, m) =>
  match d.contents name with
  | some s => (alloc A (.text s) m).bind fun (q, m) => (freeBlock m path).bind fun m => .ok (q, m, e)
  | none => (alloc A (.text []) m).bind fun (q, m) => (freeBlock m path).bind fun m => .ok (0, m, q)

/-- `file_exist` (lib/abrt.c:391-402). -/
def fileExist (A : Allocator) (d : Dir) (name : Str) (m : Mem) : Out (Bool × Mem) :=
  (alloc A (.text name) m).bind fun (path, m) => (freeBlock m path).bind fun m => .ok (d.exist name, m)

/-- `packages->member = file_contents(..)` (lib/abrt.c:316-319). -/
def fileMember (A : Allocator) (d : Dir) (i : Nat) (name : Str) (p : Ptr) (m : Mem) (e : Ptr) : Out (Mem × Ptr) :=
  (fileText A d name m e).bind fun (q, m, e) => (setTexts p (fun l => l.set i q) m).bind fun m => .ok (m, e)

/-- `strip_newline(packages->member)` (lib/abrt.c:288-294, 331-334): the text is changed where it is. -/
def cutMember (i : Nat) (p : Ptr) (m : Mem) : Out Mem :=
  (readRecord m p).bind fun r =>
  (readText m (r.texts.getD i 0)).bind fun s => .ok (m.set (r.texts.getD i 0) (some (.text (stripNewline s))))

/-- The end of `rpm_pkg_from_dir` (lib/abrt.c:322-336). -/
def packageEnd (p : Ptr) (m : Mem) (e : Ptr) : Out (Ptr × Mem × Ptr) :=
  (readRecord m p).bind fun r =>
  if 0 ∈ r.texts then (free 16 p false m).bind fun m => .ok (0, m, e)
  else
    (cutMember 0 p m).bind fun m =>
    (cutMember 1 p m).bind fun m =>
    (cutMember 2 p m).bind fun m =>
    (cutMember 3 p m).bind fun m => .ok (p, m, e)

/-- The members of the package (lib/abrt.c:315-336). -/
def packageMembers (A : Allocator) (d : Dir) (epoch : Nat) (p : Ptr) (m : Mem) (e : Ptr) : Out (Ptr × Mem × Ptr) :=
  (setData p [((epoch % 2 ^ 32 : Nat) : Int), 0, 1] m).bind fun m =>
  (fileMember A d 0 c!"pkg_name" p m e).bind fun (m, e) =>
  (fileMember A d 1 c!"pkg_version" p m e).bind fun (m, e) =>
  (fileMember A d 2 c!"pkg_release" p m e).bind fun (m, e) =>
  (fileMember A d 3 c!"pkg_arch" p m e).bind fun (m, e) => packageEnd p m e

/-- `rpm_pkg_from_dir` (lib/abrt.c:296-337). -/
def packageFiles (A : Allocator) (d : Dir) (p : Ptr) (m : Mem) (e : Ptr) : Out (Ptr × Mem × Ptr) :=
  (fileText A d c!"pkg_epoch" m e).bind fun (q, m, e) =>
  if q = 0 then .ok (0, m, e)
  else
    (readText m q).bind fun s =>
    if (strtoull 10 s).value = 2 ^ 64 - 1 then (alloc A (.text []) m).bind fun (z, m) => .ok (0, m, z)
    else (freeBlock m q).bind fun m => packageMembers A d (strtoull 10 s).value p m e

/-- The packages of the list of libraries, sorted into the other ones (lib/abrt.c:351-356). -/
def addAll (A : Allocator) (qsort : (Ptr → Ptr → Int) → List Ptr → List Ptr) (n : Nat) (packages dsos : Ptr) (m : Mem) : Out (Ptr × Mem) :=
  if dsos = 0 then .ok (packages, m)
  else
    (append n packages dsos m).bind fun (p, m) =>
    (packageSort A qsort n p m).bind fun (p, m) => packageUniq A n p m

/-- `rpm_dso_list_from_dir` (lib/abrt.c:339-362). -/
def libraryFile (A : Allocator) (qsort : (Ptr → Ptr → Int) → List Ptr → List Ptr) (n : Nat) (d : Dir) (packages : Ptr) (m : Mem) (e : Ptr) :
    Out (Ptr × Mem × Ptr) :=
  (fileText A d c!"dso_list" m e).bind fun (q, m, e) =>
  if q = 0 then .ok (packages, m, e)
  else
    (readText m q).bind fun t =>
    (dsoPackages A t m).bind fun (l, m) =>
    (addAll A qsort n packages l m).bind fun (p, m) =>
    (freeBlock m q).bind fun m => .ok (p, m, e)

/-- `rpm_interpreter_from_dir` (lib/abrt.c:364-389). The epoch is written at the end; nothing reads it before. -/
def interpreterFile (A : Allocator) (n : Nat) (d : Dir) (packages : Ptr) (m : Mem) (e : Ptr) : Out (Ptr × Mem × Ptr) :=
  (fileText A d c!"interpreter" m e).bind fun (q, m, e) =>
  if q = 0 then .ok (packages, m, e)
  else
    (alloc A (newRecord .package) m).bind fun (p, m) =>
    (readText m q).bind fun t =>
    (nevra A t p m).bind fun (r, m) =>
    (freeBlock m q).bind fun m =>
    match r with
    | none => (free 16 p true m).bind fun m => .ok (packages, m, e)
    | some epoch =>
      (setData p [(epoch : Int), 0, 0] m).bind fun m =>
      (append n packages p m).bind fun (packages, m) => .ok (packages, m, e)

/-- The package itself (lib/abrt.c:414-421): whether there was no failure, the package or 0, memory and message. -/
def ownFile (A : Allocator) (d : Dir) (m : Mem) (e : Ptr) : Out (Bool × Ptr × Mem × Ptr) :=
  (fileExist A d c!"package" m).bind fun (b, m) =>
  if b then
    (alloc A (newRecord .package) m).bind fun (p, m) =>
    (packageFiles A d p m e).bind fun (p, m, e) => .ok (p ≠ 0, p, m, e)
  else .ok (true, 0, m, e)

/-- The packages of the libraries (lib/abrt.c:423-429). -/
def libraryFiles (A : Allocator) (qsort : (Ptr → Ptr → Int) → List Ptr → List Ptr) (n : Nat) (d : Dir) (packages : Ptr) (m : Mem) (e : Ptr) :
    Out (Bool × Ptr × Mem × Ptr) :=
  (fileExist A d c!"dso_list" m).bind fun (b, m) =>
  if b then (libraryFile A qsort n d packages m e).bind fun (p, m, e) => .ok (p ≠ 0, p, m, e)
  else .ok (true, packages, m, e)

/-- The package of the interpreter (lib/abrt.c:431-435). -/
def interpreterFiles (A : Allocator) (n : Nat) (d : Dir) (packages : Ptr) (m : Mem) (e : Ptr) : Out (Bool × Ptr × Mem × Ptr) :=
  (fileExist A d c!"interpreter" m).bind fun (b, m) =>
  if b then (interpreterFile A n d packages m e).bind fun (p, m, e) => .ok (true, p, m, e)
  else .ok (true, packages, m, e)

/-- `sr_abrt_rpm_packages_from_dir` (lib/abrt.c:410-436), with `*packages` NULL at the beginning: whether it returns 0, `*packages`,
memory, and `*error_message`. -/
def dirPackages (A : Allocator) (qsort : (Ptr → Ptr → Int) → List Ptr → List Ptr) (n : Nat) (d : Dir) (m : Mem) (e : Ptr) :
    Out (Bool × Ptr × Mem × Ptr) :=
  (ownFile A d m e).bind fun (b, p, m, e) =>
  if b = false then .ok (false, p, m, e)
  else
    (libraryFiles A qsort n d p m e).bind fun (b, p, m, e) =>
    if b = false then .ok (false, p, m, e) else interpreterFiles A n d p m e

end Satyr.Heap
