import Verif.Json.PackageModel
import Verif.Json.Script
/-!
# C46, C47: the JSON form of package lists and operating systems
-/
namespace Satyr.Json
open Satyr.CStr

/-- What a 64-bit number becomes: it saturates at 2^63 - 1. -/
def keep64 (n : Nat) : Nat := min n (2 ^ 63 - 1)

theorem keep64_of {n : Nat} (h : n < 2 ^ 63) : keep64 n = n := by unfold keep64; omega

theorem readU64_nonzero {j : Value} {key : Str} {n : Nat} (h : get j key = if n ≠ 0 then some (.num n) else none) :
    readU64 j key 0 = some (keep64 n) := by
  by_cases hn : n = 0
  · rw [if_neg (by simp [hn])] at h
    rw [readU64, h, hn]
    rfl
  · rw [if_pos hn] at h
    exact readU64_of 0 h

namespace Rpm
open Satyr.Rpm

/-- What a package becomes: the epoch saturates at 2^31 - 1, the install time at 2^63 - 1, the consistency is lost. -/
def keepPackage (p : Package) : Package :=
  { p with epoch := keep32 p.epoch, installTime := keep64 p.installTime, consistency := [] }

def roleVal : Role → List (Str × Value)
  | .unknown => []
  | .affected => [(c!"package_role", .str c!"affected")]

theorem get_roleVal (r : Role) (key : Str) : get (.obj (roleVal r)) key =
    if c!"package_role" = key then (if r = .affected then some (.str c!"affected") else none) else none := by
  cases r <;> simp [roleVal, get_obj_nil, get_obj_one]

def packageVals (p : Package) : List (Str × Value) :=
  strVal c!"name" p.name ++
  ([(c!"epoch", .num p.epoch)] ++
  (strVal c!"version" p.version ++
  (strVal c!"release" p.release ++
  (strVal c!"architecture" p.architecture ++
  (nonzeroVal c!"install_time" p.installTime ++
  roleVal p.role)))))

theorem package_rend (p : Package) : Rend (toks (.obj (packageVals p))) (packageToJson p) := by
  refine Body.finish ?_ (by simp [packageVals])
  refine Body.append (Body.strMember 100 (by decide) rfl _) ?_
  refine Body.append (Body.numMember 100 (by decide) rfl _) ?_
  refine Body.append (Body.strMember 100 (by decide) rfl _) ?_
  refine Body.append (Body.strMember 100 (by decide) rfl _) ?_
  refine Body.append (Body.strMember 100 (by decide) rfl _) ?_
  refine Body.append (Body.nonzeroMember 100 (by decide) rfl _) ?_
  cases p.role with
  | unknown => exact Body.nil
  | affected => exact Body.one (t := c!"\"affected\"\n") (name := c!",   \"package_role\": ") 100 (by decide) rfl (rend_lit 100 (by decide))

theorem package_read (p : Package) : packageFromJson (.obj (packageVals p)) = some (keepPackage p) := by
  have g1 : readStr (.obj (packageVals p)) c!"name" none = some p.name := by
    apply readStr_of; member packageVals; simp [get_roleVal]
  have g2 : readStr (.obj (packageVals p)) c!"version" none = some p.version := by
    apply readStr_of; member packageVals; simp [get_roleVal]
  have g3 : readStr (.obj (packageVals p)) c!"release" none = some p.release := by
    apply readStr_of; member packageVals; simp [get_roleVal]
  have g4 : readStr (.obj (packageVals p)) c!"architecture" none = some p.architecture := by
    apply readStr_of; member packageVals; simp [get_roleVal]
  have g5 : readU32 (.obj (packageVals p)) c!"epoch" 0 = some (keep32 p.epoch) := by
    apply readU32_of; member packageVals; simp [get_roleVal]
  have g6 : readU64 (.obj (packageVals p)) c!"install_time" 0 = some (keep64 p.installTime) := by
    apply readU64_nonzero; member packageVals; simp [get_roleVal]
  have g7 : readRole (.obj (packageVals p)) = some p.role := by
    have : get (.obj (packageVals p)) c!"package_role" = if p.role = .affected then some (.str c!"affected") else none := by
      member packageVals; simp [get_roleVal]
    rw [readRole, this]
    cases p.role <;> rfl
  rw [packageFromJson, if_neg (by simp [isObject]), g1, g2, g3, g4, g5, g6, g7]
  rfl

theorem loop_rend (l : List Package) :
    Rend (l.flatMap fun p => .comma :: toks (.obj (packageVals p))) (listLoop c!", " l) := by
  induction l with
  | nil => exact Rend.nil
  | cons p l ih =>
    have ha := (package_rend p).indent 2
    have hc : Rend [.comma] c!", " := rend_lit 100 (by decide)
    cases l with
    | nil => simpa [listLoop] using hc.append ha
    | cons q l => simpa [listLoop] using hc.append (ha.append (Rend.ws (c := '\n') rfl ih))

theorem list_rend (l : List Package) (hne : l ≠ []) :
    Rend (toks (.arr (l.map fun p => .obj (packageVals p)))) (listToJson l) := by
  have hclose : Rend [.rbracket] c!" ]" := rend_lit 100 (by decide)
  have ho : Rend [.lbracket] c!"[ " := rend_lit 100 (by decide)
  cases l with
  | nil => exact absurd rfl hne
  | cons p l =>
    have ha := (package_rend p).indent 2
    rw [List.map_cons, toks, itemToks, moreItemToks_append]
    cases l with
    | nil => simpa [listLoop, listToJson] using ho.append (ha.append hclose)
    | cons q l =>
      have := ho.append (ha.append (Rend.ws (c := '\n') rfl ((loop_rend (q :: l)).append hclose)))
      simpa [listLoop, listToJson, List.flatMap_map] using this

theorem list_read (l : List Package) :
    listFromJson (.arr (l.map fun p => .obj (packageVals p))) = some (l.map keepPackage) :=
  readAll_map _ _ _ _ fun p _ => package_read p

/-- C46: what is written for a list of at least one package is a JSON document from which the same list is read, except that
epochs saturate at 2^31 - 1, install times at 2^63 - 1, and that the consistency is lost. -/
theorem C46_read_back (l : List Package) (hne : l ≠ []) :
    (parse (listToJson l)).bind listFromJson = some (l.map keepPackage) := by
  rw [parse_toks (list_rend l hne)]
  exact list_read l

/-- C46 for one package. -/
theorem C46_read_back_one (p : Package) : (parse (packageToJson p)).bind packageFromJson = some (keepPackage p) := by
  rw [parse_toks (package_rend p)]
  exact package_read p

/-- The packages that survive. -/
def WF (p : Package) : Prop := p.epoch < 2 ^ 31 ∧ p.installTime < 2 ^ 63 ∧ p.consistency = []

/-- C46, for lists of at least one package without consistency records whose numbers are not too large (missing: the other
lists, see `C46_not_empty`, `C46_not_high_epoch`, `C46_not_consistency`). -/
theorem C46_round_trip_partial (l : List Package) (hne : l ≠ []) (h : ∀ p ∈ l, WF p) :
    (parse (listToJson l)).bind listFromJson = some l := by
  rw [C46_read_back l hne, map_keep]
  rintro ⟨n, e, v, r, a, i, ro, c⟩ hp
  obtain ⟨h1, h2, h3⟩ := h _ hp
  dsimp only at h1 h2 h3
  simp only [keepPackage, keep32_of h1, keep64_of h2, h3]

/-- C46 is violated: the text of an empty list is not JSON. -/
theorem C46_not_empty : parse (listToJson []) = none := by decide +kernel

/-- C46 is violated: epochs above 2^31 - 1 change. -/
theorem C46_not_high_epoch : ∃ p : Package, p.epoch < 2 ^ 32 ∧ p.consistency = [] ∧
    (parse (listToJson [p])).bind listFromJson ≠ some [p] := by
  refine ⟨{ epoch := 2 ^ 31 }, by simp, rfl, ?_⟩
  rw [C46_read_back _ (by simp)]
  simp [keepPackage, keep32]

/-- C46 is violated: the consistency records are lost. -/
theorem C46_not_consistency (p : Package) (h : p.consistency ≠ []) :
    (parse (listToJson [p])).bind listFromJson ≠ some [p] := by
  rw [C46_read_back _ (by simp)]
  intro e
  have := congrArg Package.consistency (List.cons.inj (Option.some.inj e)).1
  exact h this.symm

example : WF { name := c!"coreutils", epoch := 1, version := c!"8.15", release := c!"10.fc17", architecture := c!"x86_64",
               installTime := 1363628422, role := .affected } := by simp [WF]

end Rpm

namespace Os
open Satyr.Os

/-- What an operating system becomes: the CPE is lost, the uptime saturates at 2^63 - 1. -/
def keep (os : OperatingSystem) : OperatingSystem := { os with cpe := none, uptime := keep64 os.uptime }

def osVals (os : OperatingSystem) : List (Str × Value) :=
  strVal c!"name" os.name ++
  (strVal c!"version" os.version ++
  (strVal c!"architecture" os.architecture ++
  (strVal c!"cpe" os.cpe ++
  (strVal c!"desktop" os.desktop ++
  (strVal c!"variant" os.variant ++
  nonzeroVal c!"uptime" os.uptime)))))

theorem os_rend (os : OperatingSystem) : Rend (toks (.obj (osVals os))) (toJson os) := by
  refine Body.finishSafely ?_
  refine Body.append (Body.strMember 100 (by decide) rfl _) ?_
  refine Body.append (Body.strMember 100 (by decide) rfl _) ?_
  refine Body.append (Body.strMember 100 (by decide) rfl _) ?_
  refine Body.append (Body.strMember 100 (by decide) rfl _) ?_
  refine Body.append (Body.strMember 100 (by decide) rfl _) ?_
  refine Body.append (Body.strMember 100 (by decide) rfl _) ?_
  exact Body.nonzeroMember 100 (by decide) rfl _

theorem os_read (os : OperatingSystem) : fromJson (.obj (osVals os)) = some (keep os) := by
  have g1 : readStr (.obj (osVals os)) c!"name" none = some os.name := by apply readStr_of; member osVals
  have g2 : readStr (.obj (osVals os)) c!"version" none = some os.version := by apply readStr_of; member osVals
  have g3 : readStr (.obj (osVals os)) c!"architecture" none = some os.architecture := by apply readStr_of; member osVals
  have g4 : readU64 (.obj (osVals os)) c!"uptime" 0 = some (keep64 os.uptime) := by apply readU64_nonzero; member osVals
  have g5 : readStr (.obj (osVals os)) c!"desktop" none = some os.desktop := by apply readStr_of; member osVals
  have g6 : readStr (.obj (osVals os)) c!"variant" none = some os.variant := by apply readStr_of; member osVals
  rw [fromJson, if_neg (by simp [isObject]), g1, g2, g3, g4, g5, g6]
  rfl

/-- C47: what is written for an operating system is a JSON document from which the same record is read, except that the CPE is
lost and that the uptime saturates at 2^63 - 1. -/
theorem C47_read_back (os : OperatingSystem) : (parse (toJson os)).bind fromJson = some (keep os) := by
  rw [parse_toks (os_rend os)]
  exact os_read os

/-- C47, for records without a CPE (missing: records with a CPE, see `C47_not_cpe`, and an uptime of 2^63 seconds). -/
theorem C47_round_trip_partial (os : OperatingSystem) (h1 : os.cpe = none) (h2 : os.uptime < 2 ^ 63) :
    (parse (toJson os)).bind fromJson = some os := by
  rw [C47_read_back]
  refine congrArg some ?_
  unfold keep
  rw [keep64_of h2, ← h1]

/-- C47 is violated by every record with a CPE. -/
theorem C47_not_cpe (os : OperatingSystem) (h : os.cpe ≠ none) : (parse (toJson os)).bind fromJson ≠ some os := by
  rw [C47_read_back]
  intro e
  exact h (congrArg OperatingSystem.cpe (Option.some.inj e)).symm

example : ∃ os : OperatingSystem, os.cpe = none ∧ os.uptime < 2 ^ 63 ∧ os.name = c!"fedora" ∧ os.desktop ≠ none :=
  ⟨{ name := c!"fedora", desktop := c!"GNOME", uptime := 352 }, by simp⟩

end Os
end Satyr.Json
