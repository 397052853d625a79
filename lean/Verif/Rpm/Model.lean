import Verif.CStr.Idx
import Verif.Frames.ThreadCmp
/-!
# Model of RPM packages (lib/rpm.c) and of the DSO list parser (lib/abrt.c)

A linked list of packages is a list. A pointer into a string is a position.
-/
namespace Satyr.Rpm
open Satyr.CStr Satyr.Frames

/-- `struct sr_rpm_consistency` (include/rpm.h:52-64). -/
structure Consistency where
  path : Option Str := none
  ownerChanged : Bool := false
  groupChanged : Bool := false
  modeChanged : Bool := false
  md5Mismatch : Bool := false
  sizeChanged : Bool := false
  majorNumberChanged : Bool := false
  minorNumberChanged : Bool := false
  symlinkChanged : Bool := false
  modificationTimeChanged : Bool := false
  deriving Repr, DecidableEq

/-- `enum sr_package_role` (include/rpm.h:38-50). -/
inductive Role where
  | unknown
  | affected
  deriving Repr, DecidableEq

/-- `struct sr_rpm_package` (include/rpm.h:66-77). `epoch` stands for a `uint32_t`, `installTime` for a `uint64_t`. -/
structure Package where
  name : Option Str := none
  epoch : Nat := 0
  version : Option Str := none
  release : Option Str := none
  architecture : Option Str := none
  installTime : Nat := 0
  role : Role := .unknown
  consistency : List Consistency := []
  deriving Repr, DecidableEq

/-! ## Comparison -/

/-- `sr_rpm_package_cmp_nvr` (lib/rpm.c:116-136). -/
def cmpNvr (p q : Package) : Int :=
  orElse0 (strcmp0 p.name q.name) <|
  orElse0 (strcmp0 p.version q.version) <|
  orElse0 (strcmp0 p.release q.release) 0

/-- `sr_rpm_package_cmp_nevra` (lib/rpm.c:94-114). -/
def cmpNevra (p q : Package) : Int :=
  orElse0 (cmpNvr p q) <|
  orElse0 (diff32 p.epoch q.epoch) <|
  orElse0 (strcmp0 p.architecture q.architecture) 0

/-- `sr_rpm_consistency_cmp` (lib/rpm.c:820-875). -/
def consistencyCmp (c d : Consistency) : Int :=
  orElse0 (strcmp0 c.path d.path) <|
  orElse0 (diffBool c.ownerChanged d.ownerChanged) <|
  orElse0 (diffBool c.groupChanged d.groupChanged) <|
  orElse0 (diffBool c.modeChanged d.modeChanged) <|
  orElse0 (diffBool c.md5Mismatch d.md5Mismatch) <|
  orElse0 (diffBool c.sizeChanged d.sizeChanged) <|
  orElse0 (diffBool c.majorNumberChanged d.majorNumberChanged) <|
  orElse0 (diffBool c.minorNumberChanged d.minorNumberChanged) <|
  orElse0 (diffBool c.symlinkChanged d.symlinkChanged) <|
  orElse0 (diffBool c.modificationTimeChanged d.modificationTimeChanged) 0

/-- `sr_rpm_package_cmp` (lib/rpm.c:71-92); the recursive comparison of consistency records (lib/rpm.c:877-900) is the
lexicographic comparison of the lists. -/
def cmp (p q : Package) : Int :=
  orElse0 (cmpNevra p q) <|
  ret64 p.installTime q.installTime <|
  orElse0 (listCmp consistencyCmp p.consistency q.consistency) 0

/-! ## Sorting and merging -/

/-- What the C standard promises about `qsort`: the result is a permutation; if the comparator is consistent on the
elements (antisymmetric in sign and transitive) the result is sorted. -/
def QsortResult {A : Type} (c : A → A → Int) (input output : List A) : Prop :=
  output.Perm input ∧
  ((∀ a ∈ input, ∀ b ∈ input, Int.sign (c b a) = - Int.sign (c a b)) →
   (∀ a ∈ input, ∀ b ∈ input, ∀ d ∈ input, c a b ≤ 0 → c b d ≤ 0 → c a d ≤ 0) →
   output.Pairwise fun a b => c a b ≤ 0)

/-- `sr_rpm_package_sort` (lib/rpm.c:174-204) for a given `qsort`. For an empty list `array` is NULL (`g_malloc_n` of
zero bytes) and `array[0]` is read. -/
def sort (qsort : (Package → Package → Int) → List Package → List Package) (packages : List Package) : Out (List Package) :=
  match qsort cmpNevra packages with
  | [] => .ub
  | r => .ok r

/-- `package_merge` (lib/rpm.c:206-237); the consistency records are dropped. -/
def merge (p q : Package) : Option Package :=
  if cmpNvr p q ≠ 0 then none
  else if p.epoch ≠ q.epoch then none
  else if p.architecture.isSome ∧ q.architecture.isSome ∧ strcmp0 p.architecture q.architecture ≠ 0 then none
  else some {
    name := p.name
    epoch := p.epoch
    version := p.version
    release := p.release
    architecture := p.architecture.or q.architecture
    installTime := if p.installTime ≠ 0 then p.installTime else q.installTime
    role := if p.role ≠ .unknown then p.role else q.role }

/-- The loop of `sr_rpm_package_uniq` (lib/rpm.c:242-270) at the package `loop`. -/
def uniqLoop (loop : Package) : List Package → List Package
  | [] => [loop]
  | next :: rest =>
    match merge loop next with
    | some merged => uniqLoop merged rest
    | none => loop :: uniqLoop next rest

/-- `sr_rpm_package_uniq` (lib/rpm.c:239-273). -/
def uniq : List Package → List Package
  | [] => []
  | p :: ps => uniqLoop p ps

/-! ## Parsing names -/

/-- `while (p > text) { --p; if (*p == '-') break; }` (lib/rpm.c:676-681, 719-724): the position where `p` stops. -/
def backToDash (text : Str) : Nat → Nat
  | 0 => 0
  | i + 1 => if text[i]? = some '-' then i else backToDash text i

/-- `sr_rpm_package_parse_nvr` (lib/rpm.c:662-700): name, version and release. -/
def parseNvr (text : Str) : Option (Str × Str × Str) :=
  match strrchrI '-' text with
  | none => none
  | some lastDash =>
    let lastButOne := backToDash text lastDash
    if lastButOne = 0 ∨ lastDash - lastButOne = 1 then none
    else some (strndup text lastButOne, strndup (text.drop (lastButOne + 1)) (lastDash - lastButOne - 1),
      text.drop (lastDash + 1))

/-- What `sr_rpm_package_parse_nevra` can do: refuse without touching the outputs, refuse after storing pointers that it
has freed, or succeed. -/
inductive Nevra where
  | fail
  | failDangling
  | ok (name : Str) (epoch : Nat) (version release architecture : Str)
  deriving Repr, DecidableEq

/-- Conversion of the epoch (lib/rpm.c:758-762). -/
def parseEpoch (s : Str) : Option Nat :=
  let r := strtoull 10 s
  if r.errno || r.noConversion || r.rest ≠ [] || r.value > 2 ^ 32 - 1 then none else some r.value

/-- The position of the colon, if it is before the last dash (lib/rpm.c:732-734). -/
def findColon (text : Str) (lastButOne lastDash : Nat) : Option Nat :=
  match strchrI ':' (text.drop lastButOne) with
  | none => none
  | some i => if lastButOne + i > lastDash then none else some (lastButOne + i)

/-- `sr_rpm_package_parse_nevra` (lib/rpm.c:702-788). -/
def parseNevra (text : Str) : Nevra :=
  match strrchrI '.' text, strrchrI '-' text with
  | some lastDot, some lastDash =>
    if lastDot ≤ lastDash + 1 then .fail
    else
      let lastButOne := backToDash text lastDash
      if lastButOne = 0 ∨ lastDash - lastButOne = 1 then .fail
      else
        let name := strndup text lastButOne
        let release := strndup (text.drop (lastDash + 1)) (lastDot - lastDash - 1)
        let architecture := text.drop (lastDot + 1)
        match findColon text lastButOne lastDash with
        | some colon =>
          if lastDash - colon = 1 ∨ colon - lastButOne = 1 then .fail
          else match parseEpoch (strndup (text.drop (lastButOne + 1)) (colon - lastButOne - 1)) with
            | none => .failDangling
            | some epoch => .ok name epoch (strndup (text.drop (colon + 1)) (lastDash - colon - 1)) release architecture
        | none => .ok name 0 (strndup (text.drop (lastButOne + 1)) (lastDash - lastButOne - 1)) release architecture
  | _, _ => .fail

/-! ## The DSO list -/

/-- `strchr(pos, '\n')` as the remaining text: NULL is the empty text here, both end the loop (lib/abrt.c:209). -/
def toNewline (s : Str) : Str := s.dropWhile fun c => c ≠ '\n'

/-- The loop of `sr_abrt_parse_dso_list` (lib/abrt.c:204-286). `fuel` bounds the number of iterations; each one moves
past at least one character. Freeing the package after a dangling failure frees its release twice: UB. -/
def dsoLoop : Nat → Str → Out (List Package)
  | 0, _ => .ok []
  | fuel + 1, pos =>
    if pos = [] then .ok []
    else match strchrI ' ' pos with
      | none => .ok []
      | some i =>
        let pos := pos.drop (i + 1)
        match strchrI ' ' pos with
        | none => dsoLoop fuel (toNewline pos)
        | some e =>
          if e ≤ 1 then dsoLoop fuel (toNewline pos)
          else match parseNevra (strndup pos e) with
            | .failDangling => .ub
            | .fail => dsoLoop fuel (toNewline pos)
            | .ok name epoch version release architecture =>
              match strchrI '\n' pos with
              | none => .ok []
              | some eol =>
                let line := strndup pos eol
                match strrchrI ' ' line with
                | none => dsoLoop fuel (toNewline pos)
                | some sp => do
                  let (len, installTime, _) ← parseUint64 (line.drop (sp + 1))
                  if len = 0 then dsoLoop fuel (toNewline pos)
                  else do
                    let rest ← dsoLoop fuel (toNewline pos)
                    .ok ({ name := some name, epoch, version := some version, release := some release,
                           architecture := some architecture, installTime := installTime.getD 0 } :: rest)

/-- `sr_abrt_parse_dso_list` (lib/abrt.c:204-286). -/
def parseDsoList (text : Str) : Out (List Package) := dsoLoop text.length text

end Satyr.Rpm
