import Verif.Heap.SystemDirModel
import Verif.Report.Model
/-!
# Model of memory: the report of a problem directory up to its stack trace (lib/abrt.c)

The members of a report that are numbers are `report_version`, `report_type`, `user_root`, `user_local`, `serial`; those that are texts are
`component_name`, `reporter_name`, `reporter_version`, in this order. The texts of the reporter are constants of the program and not in
memory: their addresses are 0. `e` is the value of `*error_message`.
-/
namespace Satyr.Heap
open Satyr.CStr
open Satyr.Abrt (Dir)
open Satyr.Report (abrtType)

/-- `sr_report_new` (lib/report.c:49-72). -/
def newReport (A : Allocator) (m : Mem) : Out (Ptr × Mem) :=
  alloc A (.record { kind := .report, data := [2, Report.ReportType.invalid.code, 0, 1, 0], texts := [0, 0, 0] }) m

/-- Assignment to a member of the structure at `p`. -/
def put (p : Ptr) (f : Record → Record) (m : Mem) : Out Mem := (readRecord m p).bind fun r => writeRecord m p (f r)

/-- `sr_report_free (report); return NULL;` (lib/report.c:74-95; lib/abrt.c:605-606, 618-619, 628-629 and 635-636). -/
def dropReport (n : Nat) (p : Ptr) (m : Mem) (e : Ptr) : Out (Ptr × Mem × Ptr) := (free n p false m).bind fun m => .ok (0, m, e)

/-- The number of occurrences (lib/abrt.c:632-637). -/
def reportCount (A : Allocator) (n : Nat) (d : Dir) (errno : Nat) (p : Ptr) (m : Mem) (e : Ptr) : Out (Ptr × Mem × Ptr) :=
  (dirCount A d errno m e).bind fun (c, m, e) =>
  match c with
  | none => dropReport (n + 8) p m e
  | some c => (put p (fun r => { r with data := r.data.set 4 (c : Int) }) m).bind fun m => .ok (p, m, e)

/-- The packages (lib/abrt.c:625-630). The function assigns to the member `rpm_packages` itself; here its last value is assigned. -/
def reportPackages (A : Allocator) (qsort : (Ptr → Ptr → Int) → List Ptr → List Ptr) (n : Nat) (d : Dir) (errno : Nat) (p : Ptr) (m : Mem)
    (e : Ptr) : Out (Ptr × Mem × Ptr) :=
  (dirPackages A qsort n d m e).bind fun (ok, q, m, e) =>
  (put p (fun r => { r with b := q }) m).bind fun m =>
  if ok = false then dropReport (n + 8) p m e else reportCount A n d errno p m e

/-- Operating system and component (lib/abrt.c:612-623). -/
def reportSystem (A : Allocator) (qsort : (Ptr → Ptr → Int) → List Ptr → List Ptr) (n : Nat) (d : Dir) (errno : Nat) (p : Ptr) (m : Mem)
    (e : Ptr) : Out (Ptr × Mem × Ptr) :=
  (dirSystem A d m e).bind fun (q, m, e) =>
  (put p (fun r => { r with a := q }) m).bind fun m =>
  if q = 0 then dropReport (n + 8) p m e
  else
    (dirComponent A d m e).bind fun (c, m, e) =>
    (put p (fun r => { r with texts := r.texts.set 0 c }) m).bind fun m =>
    reportPackages A qsort n d errno p m e

/-- `sr_abrt_report_from_dir` up to the stack trace (lib/abrt.c:595-637): the result is the report as it is then, or NULL. The rest of the
function reads the stack trace of the types that have one; for all other types it returns the report. `n` bounds the length of the lists
of packages. -/
def reportHead (A : Allocator) (qsort : (Ptr → Ptr → Int) → List Ptr → List Ptr) (n : Nat) (d : Dir) (errno : Nat) (m : Mem) (e : Ptr) :
    Out (Ptr × Mem × Ptr) :=
  (newReport A m).bind fun (p, m) =>
  (fileText A d c!"type" m e).bind fun (q, m, e) =>
  if q = 0 then dropReport (n + 8) p m e
  else
    (readText m q).bind fun t =>
    (put p (fun r => { r with data := r.data.set 1 (abrtType t).code }) m).bind fun m =>
    (freeBlock m q).bind fun m => reportSystem A qsort n d errno p m e

end Satyr.Heap
