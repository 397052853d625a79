import Verif.Heap.PackageDirModel
import Verif.Os.Model
/-!
# Model of memory: operating system, component and number of occurrences of a problem directory (lib/operating_system.c, lib/abrt.c)

The members of an operating system that are texts are `name`, `version`, `architecture`, `cpe`, `desktop`, `variant`, in this order. `e` is
the value of `*error_message`. The texts of messages are not modelled.
-/
namespace Satyr.Heap
open Satyr.CStr
open Satyr.Abrt (Dir)

/-- `sr_operating_system_new` (lib/operating_system.c:30-48). -/
def newSystem (A : Allocator) (m : Mem) : Out (Ptr × Mem) :=
  (alloc A (newRecord .system) m).bind fun (p, m) => (setData p [0] m).bind fun m => .ok (p, m)

/-- `operating_system->member = value`. -/
def assign (i : Nat) (q p : Ptr) (m : Mem) : Out Mem := setTexts p (fun l => l.set i q) m

/-- The branch for the version of the development version of Fedora (lib/operating_system.c:214-220). -/
def rawhide (A : Allocator) (value p : Ptr) (m : Mem) : Out Mem :=
  (readRecord m p).bind fun r =>
  (if r.texts.getD 1 0 ≠ 0 then freeBlock m (r.texts.getD 1 0) else .ok m).bind fun m =>
  (alloc A (.text c!"rawhide") m).bind fun (q, m) =>
  (assign 1 q p m).bind fun m => freeBlock m value

/-- The branches of `os_release_callback` (lib/operating_system.c:204-232). -/
def osBranch (A : Allocator) (key value p : Ptr) (m : Mem) : Out Mem :=
  (readText m key).bind fun k =>
  (readText m value).bind fun v =>
  (readRecord m p).bind fun r =>
  if strcmp k c!"ID" = 0 then assign 0 value p m
  else if strcmp k c!"VERSION_ID" = 0 then (if r.texts.getD 1 0 = 0 then assign 1 value p m else .ok m)
  else if strcmp k c!"VERSION" = 0 ∧ strstrHas v c!"(Rawhide)" = true then rawhide A value p m
  else if strcmp k c!"CPE_NAME" = 0 then assign 3 value p m
  else if strcmp k c!"VARIANT_ID" = 0 then assign 5 value p m
  else freeBlock m value

/-- One line: the texts are allocated in `sr_parse_os_release` (lib/utils.c:689-695) and `os_release_callback`
(lib/operating_system.c:198-234) is called. The value is stored as it is after `unescape_osinfo_value`. -/
def osPair (A : Allocator) (p : Ptr) (key value : Str) (m : Mem) : Out Mem :=
  (alloc A (.text key) m).bind fun (k, m) =>
  (alloc A (.text value) m).bind fun (v, m) =>
  (osBranch A k v p m).bind fun m => freeBlock m k

/-- `sr_parse_os_release` with `os_release_callback` (lib/utils.c:657-710): the lines are those of the model without memory. -/
def osPairs (A : Allocator) (p : Ptr) : List (Str × Str) → Mem → Out Mem
  | [], m => .ok m
  | (k, v) :: l, m => (osPair A p k v m).bind fun m => osPairs A p l m

/-- `sr_operating_system_parse_etc_os_release` (lib/operating_system.c:236-243). -/
def etcOsRelease (A : Allocator) (text : Str) (p : Ptr) (m : Mem) : Out (Bool × Mem) :=
  (osPairs A p (Os.parseOsRelease text) m).bind fun m =>
  (readRecord m p).bind fun r => .ok (decide (r.texts.getD 0 0 ≠ 0 ∧ r.texts.getD 1 0 ≠ 0), m)

/-- `sr_operating_system_parse_etc_system_release` (lib/operating_system.c:156-196) with the members of `p`. The name is stored as it is
after the loop that makes it lower case. -/
def etcSystemRelease (A : Allocator) (text : Str) (p : Ptr) (m : Mem) : Out (Bool × Mem) :=
  match strstrI c!" release " text with
  | none => .ok (false, m)
  | some release =>
    (alloc A (.text (Os.systemName text release)) m).bind fun (q, m) =>
    (assign 0 q p m).bind fun m =>
    if Os.systemName text release = [] then .ok (false, m)
    else
      (alloc A (.text (Os.systemVersion (text.drop (release + c!" release ".length)))) m).bind fun (q, m) =>
      (assign 1 q p m).bind fun m => .ok (true, m)

/-- `desktop_from_dir` (lib/abrt.c:438-469). -/
def desktopFile (A : Allocator) (d : Dir) (m : Mem) (e : Ptr) : Out (Ptr × Mem × Ptr) :=
  (fileText A d c!"environ" m e).bind fun (q, m, e) =>
  if q = 0 then .ok (0, m, e)
  else
    (readText m q).bind fun s =>
    match Abrt.desktopOf s with
    | none => (freeBlock m q).bind fun m => .ok (0, m, e)
    | some x => (alloc A (.text x) m).bind fun (r, m) => (freeBlock m q).bind fun m => .ok (r, m, e)

/-- A file that is read with `read` and freed (lib/abrt.c:554-559 and 564-572). -/
def osFile (A : Allocator) (d : Dir) (name : Str) (read : Str → Mem → Out (Bool × Mem)) (m : Mem) (e : Ptr) : Out (Bool × Mem × Ptr) :=
  (fileText A d name m e).bind fun (q, m, e) =>
  if q = 0 then .ok (false, m, e)
  else
    (readText m q).bind fun s =>
    (read s m).bind fun (b, m) => (freeBlock m q).bind fun m => .ok (b, m, e)

/-- The rest, if name and version are known (lib/abrt.c:582-592). -/
def osRest (A : Allocator) (d : Dir) (p : Ptr) (m : Mem) (e : Ptr) : Out (Ptr × Mem × Ptr) :=
  (fileMember A d 2 c!"architecture" p m e).bind fun (m, e) =>
  (readRecord m p).bind fun r =>
  if r.texts.getD 2 0 = 0 then (free 16 p false m).bind fun m => .ok (0, m, e)
  else
    (desktopFile A d m e).bind fun (q, m, e) =>
    (assign 4 q p m).bind fun m => .ok (p, m, e)

/-- `sr_abrt_operating_system_from_dir` (lib/abrt.c:547-593). -/
def dirSystem (A : Allocator) (d : Dir) (m : Mem) (e : Ptr) : Out (Ptr × Mem × Ptr) :=
  (newSystem A m).bind fun (p, m) =>
  (osFile A d c!"os_info" (fun s => etcOsRelease A s p) m e).bind fun (b, m, e) =>
  (if b then .ok (b, m, e) else osFile A d c!"os_release" (fun s => etcSystemRelease A s p) m e).bind fun (b, m, e) =>
  if b = false then (free 16 p false m).bind fun m => (alloc A (.text []) m).bind fun (z, m) => .ok (0, m, z)
  else osRest A d p m e

/-- `occurrences_from_dir` (lib/abrt.c:471-516): the number, or failure and a message. -/
def dirCount (A : Allocator) (d : Dir) (errno : Nat) (m : Mem) (e : Ptr) : Out (Option Nat × Mem × Ptr) :=
  (fileText A d c!"count" m e).bind fun (q, m, e) =>
  if q = 0 then .ok (none, m, e)
  else
    (readText m q).bind fun s =>
    match Abrt.occurrencesOf errno s with
    | none => (alloc A (.text []) m).bind fun (z, m) => (freeBlock m q).bind fun m => .ok (none, m, z)
    | some n => (freeBlock m q).bind fun m => .ok (some n, m, e)

/-- The name made from the path of the executable (lib/abrt.c:526-544). -/
def unpackaged (A : Allocator) (d : Dir) (m : Mem) (e : Ptr) : Out (Ptr × Mem × Ptr) :=
  (fileExist A d c!"executable" m).bind fun (b, m) =>
  if b then
    (fileText A d c!"executable" m e).bind fun (q, m, e) =>
    if q = 0 then .ok (0, m, e)
    else
      (readText m q).bind fun s =>
      (alloc A (.text (Short.baseName s ++ c!"-unpackaged")) m).bind fun (r, m) =>
      (freeBlock m q).bind fun m => .ok (r, m, e)
  else .ok (0, m, e)

/-- `get_component` (lib/abrt.c:518-545). -/
def dirComponent (A : Allocator) (d : Dir) (m : Mem) (e : Ptr) : Out (Ptr × Mem × Ptr) :=
  (fileExist A d c!"package" m).bind fun (b, m) =>
  if b then fileText A d c!"component" m e else unpackaged A d m e

end Satyr.Heap
