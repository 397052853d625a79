import Verif.Heap.GdbTextModel
import Verif.Rpm.Model
/-!
# Model of memory: packages (lib/rpm.c:138-273, 702-788, lib/abrt.c:204-286)

What does not use memory is taken from `Verif/Rpm`.
-/
namespace Satyr.Heap
open Satyr.CStr

/-! ## Reading packages in memory -/

/-- A text that may be NULL. -/
def readOpt (m : Mem) (p : Ptr) : Out (Option Str) := if p = 0 then .ok none else (readText m p).bind fun s => .ok (some s)

/-- The members of a package other than its consistency records (they are read one after the other by the functions that need
them). -/
def readPackage (m : Mem) (p : Ptr) : Out Rpm.Package :=
  (readRecord m p).bind fun r =>
  (readOpt m (r.texts.getD 0 0)).bind fun name =>
  (readOpt m (r.texts.getD 1 0)).bind fun version =>
  (readOpt m (r.texts.getD 2 0)).bind fun release =>
  (readOpt m (r.texts.getD 3 0)).bind fun architecture =>
  .ok { name, version, release, architecture, epoch := (r.data.getD 0 0).toNat, installTime := (r.data.getD 1 0).toNat,
        role := if r.data.getD 2 0 = 0 then .unknown else .affected }

/-! ## Sorting -/

/-- The addresses of the packages of a list (lib/rpm.c:180-187). -/
def addresses : Nat → Ptr → Mem → Out (List Ptr)
  | 0, _, _ => .ub
  | n + 1, p, m =>
    if p = 0 then .ok []
    else (readRecord m p).bind fun r => (addresses n r.next m).bind fun l => .ok (p :: l)

/-- All packages can be read. -/
def readAllPackages (m : Mem) : List Ptr → Out Unit
  | [] => .ok ()
  | p :: l => (readPackage m p).bind fun _ => readAllPackages m l

/-- `cmp_nevra_qsort_wrapper` (lib/rpm.c:138-143), for packages that can be read. -/
def compareAt (m : Mem) (p q : Ptr) : Int :=
  match readPackage m p, readPackage m q with
  | .ok x, .ok y => Rpm.cmpNevra x y
  | _, _ => 0

/-- The loop that links the packages in the order of the array (lib/rpm.c:193-199). -/
def relink : List Ptr → Mem → Out Mem
  | [], m => .ok m
  | p :: l, m =>
    (readRecord m p).bind fun r => (writeRecord m p { r with next := l.headD 0 }).bind fun m => relink l m

/-- `sr_rpm_package_sort` (lib/rpm.c:174-204) for a given `qsort`. The array is a block without contents. For an empty list there
is no array, and `array[0]` is read. -/
def packageSort (A : Allocator) (qsort : (Ptr → Ptr → Int) → List Ptr → List Ptr) (n : Nat) (p : Ptr) (m : Mem) : Out (Ptr × Mem) :=
  (addresses n p m).bind fun l =>
  if l = [] then .ub
  else
    (alloc A (.text []) m).bind fun (array, m) =>
    (readAllPackages m l).bind fun _ =>
    (relink (qsort (compareAt m) l) m).bind fun m' =>
    (freeBlock m' array).bind fun m' => .ok ((qsort (compareAt m) l).headD 0, m')

/-! ## Merging -/

/-- `q->member = g_strdup(p->member)` (lib/rpm.c:220-229). -/
def copyMember (A : Allocator) (i : Nat) (p q : Ptr) (m : Mem) : Out Mem :=
  (readRecord m p).bind fun r =>
  (copyText A (r.texts.getD i 0) m).bind fun (t, m) => setTexts q (fun l => l.set i t) m

/-- The architecture of the merged package (lib/rpm.c:225-229). -/
def mergeArchitecture (A : Allocator) (x y : Rpm.Package) (p1 p2 q : Ptr) (m : Mem) : Out Mem :=
  if x.architecture.isSome then copyMember A 3 p1 q m
  else if y.architecture.isSome then copyMember A 3 p2 q m
  else .ok m

/-- `package_merge` (lib/rpm.c:206-237). -/
def packageMerge (A : Allocator) (p1 p2 : Ptr) (m : Mem) : Out (Ptr × Mem) :=
  (readPackage m p1).bind fun x =>
  (readPackage m p2).bind fun y =>
  if Rpm.cmpNvr x y ≠ 0 then .ok (0, m)
  else if x.epoch ≠ y.epoch then .ok (0, m)
  else if x.architecture.isSome ∧ y.architecture.isSome ∧ strcmp0 x.architecture y.architecture ≠ 0 then .ok (0, m)
  else
    (alloc A (newRecord .package) m).bind fun (q, m) =>
    (copyMember A 0 p1 q m).bind fun m =>
    (copyMember A 1 p1 q m).bind fun m =>
    (copyMember A 2 p1 q m).bind fun m =>
    (mergeArchitecture A x y p1 p2 q m).bind fun m =>
    (setData q [(x.epoch : Int), ((if x.installTime ≠ 0 then x.installTime else y.installTime : Nat) : Int),
      if (if x.role ≠ .unknown then x.role else y.role) = .unknown then 0 else 1] m).bind fun m => .ok (q, m)

/-- The two packages are replaced by the merged one (lib/rpm.c:249-261). -/
def replaceBoth (n : Nat) (first prev p q : Ptr) (m : Mem) : Out (Ptr × Mem) :=
  (if prev ≠ 0 then link prev q m else .ok m).bind fun m =>
  (readRecord m p).bind fun r =>
  (readRecord m r.next).bind fun s =>
  (link q s.next m).bind fun m =>
  (free n r.next false m).bind fun m =>
  (free n p false m).bind fun m => .ok (if prev ≠ 0 then first else q, m)

/-- The loop of `sr_rpm_package_uniq` (lib/rpm.c:243-270). -/
def uniqLoop (A : Allocator) (n : Nat) : Nat → Ptr → Ptr → Ptr → Mem → Out (Ptr × Mem)
  | 0, _, _, _, _ => .ub
  | fuel + 1, first, prev, p, m =>
    if p = 0 then .ok (first, m)
    else
      (readRecord m p).bind fun r =>
      if r.next = 0 then .ok (first, m)
      else
        (packageMerge A p r.next m).bind fun (q, m) =>
        if q = 0 then uniqLoop A n fuel first p r.next m
        else (replaceBoth n first prev p q m).bind fun (first, m) => uniqLoop A n fuel first prev q m

/-- `sr_rpm_package_uniq` (lib/rpm.c:239-273). -/
def packageUniq (A : Allocator) (n : Nat) (p : Ptr) (m : Mem) : Out (Ptr × Mem) := uniqLoop A n n p 0 p m

/-! ## Reading packages from text -/

/-- `*member = g_strndup(..)` for a member of the package at `p`. -/
def putMember (A : Allocator) (t : Text) (s : Str) (p : Ptr) (m : Mem) : Out Mem :=
  (storeText A p .package t s ⟨m, none⟩).bind fun s => .ok s.mem

/-- `g_free(*member)`: the member keeps the address. -/
def freeMember (i : Nat) (p : Ptr) (m : Mem) : Out Mem :=
  (readRecord m p).bind fun r => freeBlock m (r.texts.getD i 0)

/-- The epoch before the colon (lib/rpm.c:755-773): it, or nothing if it is not a number. The text is freed. -/
def readEpoch (A : Allocator) (s : Str) (m : Mem) : Out (Option Nat × Mem) :=
  (alloc A (.text s) m).bind fun (q, m) =>
  (readText m q).bind fun s =>
  (freeBlock m q).bind fun m => .ok (Rpm.parseEpoch s, m)

/-- `sr_rpm_package_parse_nevra` (lib/rpm.c:702-788) with the members of the package at `p`: the epoch, or `none` if it returns
`false`. -/
def nevra (A : Allocator) (text : Str) (p : Ptr) (m : Mem) : Out (Option Nat × Mem) :=
  match strrchrI '.' text, strrchrI '-' text with
  | some lastDot, some lastDash =>
    if lastDot ≤ lastDash + 1 then .ok (none, m)
    else if Rpm.backToDash text lastDash = 0 ∨ lastDash - Rpm.backToDash text lastDash = 1 then .ok (none, m)
    else
      match Rpm.findColon text (Rpm.backToDash text lastDash) lastDash with
      | some colon =>
        if lastDash - colon = 1 ∨ colon - Rpm.backToDash text lastDash = 1 then .ok (none, m)
        else
          (putMember A .architecture (text.drop (lastDot + 1)) p m).bind fun m =>
          (putMember A .release (strndup (text.drop (lastDash + 1)) (lastDot - lastDash - 1)) p m).bind fun m =>
          (putMember A .version (strndup (text.drop (colon + 1)) (lastDash - colon - 1)) p m).bind fun m =>
          (readEpoch A (strndup (text.drop (Rpm.backToDash text lastDash + 1)) (colon - Rpm.backToDash text lastDash - 1)) m).bind
            fun (e, m) =>
          match e with
          | none => (freeMember 2 p m).bind fun m => (freeMember 3 p m).bind fun m => .ok (none, m)
          | some e => (putMember A .name (strndup text (Rpm.backToDash text lastDash)) p m).bind fun m => .ok (some e, m)
      | none =>
        (putMember A .architecture (text.drop (lastDot + 1)) p m).bind fun m =>
        (putMember A .release (strndup (text.drop (lastDash + 1)) (lastDot - lastDash - 1)) p m).bind fun m =>
        (putMember A .version (strndup (text.drop (Rpm.backToDash text lastDash + 1)) (lastDash - Rpm.backToDash text lastDash - 1)) p m).bind
          fun m =>
        (putMember A .name (strndup text (Rpm.backToDash text lastDash)) p m).bind fun m => .ok (some 0, m)
  | _, _ => .ok (none, m)

/-- A package is read from a copy of the text (lib/abrt.c:228-246): the package, or 0 if the text is refused. -/
def dsoPackage (A : Allocator) (text : Str) (m : Mem) : Out (Option (Ptr × Nat) × Mem) :=
  (alloc A (.text text) m).bind fun (copy, m) =>
  (alloc A (newRecord .package) m).bind fun (p, m) =>
  (readText m copy).bind fun text =>
  (nevra A text p m).bind fun (e, m) =>
  (freeBlock m copy).bind fun m =>
  match e with
  | none => (free 16 p true m).bind fun m => .ok (none, m)
  | some e => .ok (some (p, e), m)

/-- The install time at the end of the line (lib/abrt.c:256-273): it is `none` if there is none. -/
def dsoTime (A : Allocator) (line : Str) (m : Mem) : Out (Option Nat × Mem) :=
  (alloc A (.text line) m).bind fun (copy, m) =>
  (readText m copy).bind fun line =>
  match strrchrI ' ' line with
  | none => (freeBlock m copy).bind fun m => .ok (none, m)
  | some sp =>
    (parseUint64 (line.drop (sp + 1))).bind fun t =>
    (freeBlock m copy).bind fun m => .ok (if t.1 = 0 then none else some (t.2.1.getD 0), m)

/-- The loop of `sr_abrt_parse_dso_list` (lib/abrt.c:209-283). Epoch and install time are written at the end; nothing reads them
before. `n` bounds the length of the list. -/
def dsoList (A : Allocator) (n : Nat) : Nat → Str → Ptr → Mem → Out (Ptr × Mem)
  | 0, _, packages, m => .ok (packages, m)
  | fuel + 1, pos, packages, m =>
    if pos = [] then .ok (packages, m)
    else
      match strchrI ' ' pos with
      | none => .ok (packages, m)
      | some i =>
        match strchrI ' ' (pos.drop (i + 1)) with
        | none => dsoList A n fuel (Rpm.toNewline (pos.drop (i + 1))) packages m
        | some e =>
          if e ≤ 1 then dsoList A n fuel (Rpm.toNewline (pos.drop (i + 1))) packages m
          else
            (dsoPackage A (strndup (pos.drop (i + 1)) e) m).bind fun (r, m) =>
            match r with
            | none => dsoList A n fuel (Rpm.toNewline (pos.drop (i + 1))) packages m
            | some (p, epoch) =>
              match strchrI '\n' (pos.drop (i + 1)) with
              | none => (free 16 p true m).bind fun m => .ok (packages, m)
              | some eol =>
                (dsoTime A (strndup (pos.drop (i + 1)) eol) m).bind fun (t, m) =>
                match t with
                | none => (free 16 p true m).bind fun m => dsoList A n fuel (Rpm.toNewline (pos.drop (i + 1))) packages m
                | some t =>
                  (setData p [(epoch : Int), (t : Int), 0] m).bind fun m =>
                  (append n packages p m).bind fun (packages, m) =>
                  dsoList A n fuel (Rpm.toNewline (pos.drop (i + 1))) packages m

/-- `sr_abrt_parse_dso_list` (lib/abrt.c:204-286). -/
def dsoPackages (A : Allocator) (text : Str) (m : Mem) : Out (Ptr × Mem) := dsoList A text.length text.length text 0 m

end Satyr.Heap
