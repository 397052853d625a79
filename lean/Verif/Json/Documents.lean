import Verif.Json.CoreModel
import Verif.Json.KoopsModel
import Verif.Json.PackageModel
import Verif.Json.ScriptModel
import Mathlib.Data.List.Forall2
/-!
# What is read from any JSON document (C123)

A description of the documents, and for each reader the proof that it accepts exactly the documents described, with the values
described.
-/
namespace Satyr.Json
open Satyr.CStr Satyr.Frames Satyr.Normalize

/-! ## Specification -/

/-- The object `l` has a member `k` with the value `v`; of several members with the same name, the last counts. -/
def HasMember (l : List (Str × Value)) (k : Str) (v : Value) : Prop :=
  ∃ before after, l = before ++ (k, v) :: after ∧ ∀ m ∈ after, m.1 ≠ k

def NoMember (l : List (Str × Value)) (k : Str) : Prop := ∀ m ∈ l, m.1 ≠ k

/-- An optional string; `d` if it is missing. -/
inductive Text (l : List (Str × Value)) (k : Str) (d : Option Str) : Option Str → Prop where
  | absent : NoMember l k → Text l k d d
  | present (s : Str) : HasMember l k (.str s) → Text l k d (some s)

/-- An optional truth value. -/
inductive Truth (l : List (Str × Value)) (k : Str) (d : Bool) : Bool → Prop where
  | absent : NoMember l k → Truth l k d d
  | present (b : Bool) : HasMember l k (.bool b) → Truth l k d b

/-- `m` is `n`, brought into the range of signed numbers of `bits` bits. -/
def Saturated (bits : Nat) (n m : Int) : Prop :=
  n < -2 ^ (bits - 1) ∧ m = -2 ^ (bits - 1) ∨ -2 ^ (bits - 1) ≤ n ∧ n < 2 ^ (bits - 1) ∧ m = n ∨
    2 ^ (bits - 1) ≤ n ∧ m = 2 ^ (bits - 1) - 1

/-- An optional number, which is read as a signed number of `signed` bits and stored in `bits` bits. -/
inductive Number (signed bits : Nat) (l : List (Str × Value)) (k : Str) (d : Nat) : Nat → Prop where
  | absent : NoMember l k → Number signed bits l k d d
  | present (n m : Int) (v : Nat) : HasMember l k (.num n) → Saturated signed n m → v < 2 ^ bits → (∃ q : Int, (v : Int) = m + q * 2 ^ bits) →
      Number signed bits l k d v

/-- An optional array of things described by `P`. -/
inductive Items {α : Type} (P : Value → α → Prop) (l : List (Str × Value)) (k : Str) : List α → Prop where
  | absent : NoMember l k → Items P l k []
  | present (vs : List Value) (as : List α) : HasMember l k (.arr vs) → List.Forall₂ P vs as → Items P l k as

abbrev U64 := Number 64 64
abbrev U32 := Number 32 32
abbrev U16 := Number 32 16

/-- A frame of a core dump. -/
def CoreFrameDoc (j : Value) (f : CoreFrame) : Prop :=
  ∃ l, j = .obj l ∧ U64 l c!"address" (2 ^ 64 - 1) f.address ∧ Text l c!"build_id" none f.buildId ∧
    U64 l c!"build_id_offset" (2 ^ 64 - 1) f.buildIdOffset ∧ Text l c!"function_name" none f.functionName ∧
    Text l c!"file_name" none f.fileName ∧ Text l c!"fingerprint" none f.fingerprint ∧
    Truth l c!"fingerprint_hashed" true f.fingerprintHashed

def CoreThreadDoc (j : Value) (t : CoreThread) : Prop :=
  ∃ l, j = .obj l ∧ t.id = 0 ∧ Items CoreFrameDoc l c!"frames" t.frames

/-- The thread with its mark of the crash thread. -/
def MarkedDoc (j : Value) (t : CoreThread × Bool) : Prop :=
  CoreThreadDoc j t.1 ∧ ∃ l, j = .obj l ∧ Truth l c!"crash_thread" false t.2

/-- `c` is the position of the last mark. -/
def LastMark (marks : List Bool) (c : Option Nat) : Prop :=
  c = none ∧ true ∉ marks ∨ ∃ before after, marks = before ++ true :: after ∧ true ∉ after ∧ c = some before.length

def CoreDoc (j : Value) (t : CoreTrace) : Prop :=
  ∃ l, j = .obj l ∧ U16 l c!"signal" 0 t.signal ∧ Text l c!"executable" none t.executable ∧
    Truth l c!"only_crash_thread" false t.onlyCrashThread ∧
    ∃ items, Items MarkedDoc l c!"stacktrace" items ∧ t.threads = items.map Prod.fst ∧ LastMark (items.map Prod.snd) t.crashThread

/-- A string under the name `plain`, or else under the name `special`. -/
def SpecialText (l : List (Str × Value)) (plain special : Str) (isSpecial : Bool) (s : Option Str) : Prop :=
  (∃ t, HasMember l plain (.str t) ∧ isSpecial = false ∧ s = some t) ∨
  NoMember l plain ∧ ((∃ t, HasMember l special (.str t) ∧ isSpecial = true ∧ s = some t) ∨
    NoMember l special ∧ isSpecial = false ∧ s = none)

def PythonFrameDoc (j : Value) (f : PythonFrame) : Prop :=
  ∃ l, j = .obj l ∧ SpecialText l c!"file_name" c!"special_file" f.specialFile f.fileName ∧
    SpecialText l c!"function_name" c!"special_function" f.specialFunction f.functionName ∧
    Text l c!"line_contents" none f.lineContents ∧ U32 l c!"file_line" 0 f.fileLine

def PythonDoc (j : Value) (t : PythonTrace) : Prop :=
  ∃ l, j = .obj l ∧ Text l c!"exception_name" none t.exceptionName ∧ Items PythonFrameDoc l c!"stacktrace" t.frames

def RubyFrameDoc (j : Value) (f : RubyFrame) : Prop :=
  ∃ l, j = .obj l ∧ Text l c!"file_name" none f.fileName ∧
    SpecialText l c!"function_name" c!"special_function" f.specialFunction f.functionName ∧
    U32 l c!"file_line" 0 f.fileLine ∧ U32 l c!"block_level" 0 f.blockLevel ∧ U32 l c!"rescue_level" 0 f.rescueLevel

def RubyDoc (j : Value) (t : RubyTrace) : Prop :=
  ∃ l, j = .obj l ∧ Text l c!"exception_name" none t.exceptionName ∧ Items RubyFrameDoc l c!"stacktrace" t.frames

def JavaFrameDoc (j : Value) (f : JavaFrame) : Prop :=
  ∃ l, j = .obj l ∧ Text l c!"name" none f.name ∧ Text l c!"file_name" none f.fileName ∧ U32 l c!"file_line" 0 f.fileLine ∧
    Text l c!"class_path" none f.classPath ∧ Truth l c!"is_native" false f.isNative ∧
    Truth l c!"is_exception" false f.isException ∧ Text l c!"message" none f.message

def JavaThreadDoc (j : Value) (t : JavaThread) : Prop :=
  ∃ l, j = .obj l ∧ Text l c!"name" none t.name ∧ Items JavaFrameDoc l c!"frames" t.frames

def JavaDoc (j : Value) (t : JavaTrace) : Prop :=
  ∃ l, j = .obj l ∧ Items JavaThreadDoc l c!"threads" t.threads

def JsFrameDoc (j : Value) (f : JsFrame) : Prop :=
  ∃ l, j = .obj l ∧ Text l c!"file_name" none f.fileName ∧ Text l c!"function_name" none f.functionName ∧
    U32 l c!"file_line" 0 f.fileLine ∧ U32 l c!"line_column" 0 f.lineColumn

/-- The number of an engine or a runtime: 0 if it is unknown, 1 if it is the one that is known. -/
def PartDoc (l : List (Str × Value)) (k known : Str) (n : Nat) : Prop :=
  HasMember l k (.str c!"<unknown>") ∧ n = 0 ∨ HasMember l k (.str known) ∧ n = 1

/-- The platform; the engine takes the place of the runtime and the runtime that of the engine. -/
def PlatformDoc (j : Value) (p : Nat) : Prop :=
  ∃ l, j = .obj l ∧ ∃ engine runtime, PartDoc l c!"engine" c!"V8" engine ∧ PartDoc l c!"runtime" c!"Node.js" runtime ∧
    p = engine * 16 + runtime

def JsDoc (j : Value) (t : JsTrace) : Prop :=
  ∃ l, j = .obj l ∧ Text l c!"exception_name" none t.exceptionName ∧ Items JsFrameDoc l c!"stacktrace" t.frames ∧
    (NoMember l c!"platform" ∧ t.platform = 0 ∨ ∃ p, HasMember l c!"platform" p ∧ PlatformDoc p t.platform)

def KoopsFrameDoc (j : Value) (f : KoopsFrame) : Prop :=
  ∃ l, j = .obj l ∧ U64 l c!"address" 0 f.address ∧ Truth l c!"reliable" false f.reliable ∧
    Text l c!"function_name" none f.functionName ∧ U64 l c!"function_offset" 0 f.functionOffset ∧
    U64 l c!"function_length" 0 f.functionLength ∧ Text l c!"module_name" none f.moduleName ∧
    U64 l c!"from_address" 0 f.fromAddress ∧ Text l c!"from_function_name" none f.fromFunctionName ∧
    U64 l c!"from_function_offset" 0 f.fromFunctionOffset ∧ U64 l c!"from_function_length" 0 f.fromFunctionLength ∧
    Text l c!"from_module_name" none f.fromModuleName ∧ Text l c!"special_stack" none f.specialStack

/-- The names of the taint flags. -/
def taintNames : List (Str × (Taints → Bool)) :=
  [(c!"module_proprietary", Taints.moduleProprietary), (c!"forced_module", Taints.forcedModule),
   (c!"smp_unsafe", Taints.smpUnsafe), (c!"forced_removal", Taints.forcedRemoval),
   (c!"mce", Taints.mce), (c!"page_release", Taints.pageRelease),
   (c!"userspace", Taints.userspace), (c!"died_recently", Taints.diedRecently),
   (c!"acpi_overridden", Taints.acpiOverridden), (c!"warning", Taints.warning),
   (c!"staging_driver", Taints.stagingDriver), (c!"firmware_workaround", Taints.firmwareWorkaround),
   (c!"module_out_of_tree", Taints.moduleOutOfTree), (c!"unsigned_module", Taints.unsignedModule),
   (c!"soft_lockup", Taints.softLockup), (c!"live_patched", Taints.livePatched)]

/-- A string. -/
def StrDoc (j : Value) (s : Str) : Prop := j = .str s

/-- Exactly the flags that are named are set; unknown names mean nothing. -/
def TaintsDoc (l : List (Str × Value)) (t : Taints) : Prop :=
  ∃ names, Items StrDoc l c!"taint_flags" names ∧ ∀ p ∈ taintNames, p.2 t = true ↔ p.1 ∈ names

/-- The array of modules, of which there may be at most 127. -/
def ModulesDoc (l : List (Str × Value)) (m : Option (List Str)) : Prop :=
  NoMember l c!"modules" ∧ m = none ∨
    ∃ vs names, HasMember l c!"modules" (.arr vs) ∧ List.Forall₂ StrDoc vs names ∧ names.length ≤ 127 ∧ m = some names

def KoopsDoc (j : Value) (t : KoopsTrace) : Prop :=
  ∃ l, j = .obj l ∧ Text l c!"version" none t.version ∧ Text l c!"raw_oops" none t.rawOops ∧ TaintsDoc l t.taint ∧
    ModulesDoc l t.modules ∧ Items KoopsFrameDoc l c!"frames" t.frames ∧ t.reason = none

def OsDoc (j : Value) (o : Os.OperatingSystem) : Prop :=
  ∃ l, j = .obj l ∧ Text l c!"name" none o.name ∧ Text l c!"version" none o.version ∧
    Text l c!"architecture" none o.architecture ∧ U64 l c!"uptime" 0 o.uptime ∧
    (Text l c!"desktop" none o.desktop ∨ (∀ d, ¬ Text l c!"desktop" none d) ∧ o.desktop = none) ∧
    (Text l c!"variant" none o.variant ∨ (∀ d, ¬ Text l c!"variant" none d) ∧ o.variant = none) ∧ o.cpe = none

def PackageDoc (j : Value) (p : Rpm.Package) : Prop :=
  ∃ l, j = .obj l ∧ Text l c!"name" none p.name ∧ Text l c!"version" none p.version ∧ Text l c!"release" none p.release ∧
    Text l c!"architecture" none p.architecture ∧ U32 l c!"epoch" 0 p.epoch ∧ U64 l c!"install_time" 0 p.installTime ∧
    (NoMember l c!"package_role" ∧ p.role = .unknown ∨ HasMember l c!"package_role" (.str c!"affected") ∧ p.role = .affected) ∧
    p.consistency = []

/-- A list of packages. -/
def PackagesDoc (j : Value) (ps : List Rpm.Package) : Prop := ∃ vs, j = .arr vs ∧ List.Forall₂ PackageDoc vs ps

/-! ## Proofs -/

theorem get_some_iff {l : List (Str × Value)} {k : Str} {v : Value} : get (.obj l) k = some v ↔ HasMember l k v := by
  unfold get HasMember
  simp only [Option.map_eq_some_iff]
  constructor
  · rintro ⟨⟨k', v'⟩, h, rfl⟩
    rw [List.find?_eq_some_iff_append] at h
    obtain ⟨hk, as, bs, e, hb⟩ := h
    have hk : k' = k := by simpa using hk
    refine ⟨bs.reverse, as.reverse, ?_, ?_⟩
    · have := congrArg List.reverse e
      rw [List.reverse_reverse] at this
      rw [this, hk]; simp
    · intro m hm
      have := hb m (List.mem_reverse.1 hm)
      simpa using this
  · rintro ⟨before, after, rfl, h⟩
    refine ⟨(k, v), ?_, rfl⟩
    rw [List.find?_eq_some_iff_append]
    refine ⟨by simp, after.reverse, before.reverse, by simp, ?_⟩
    intro a ha
    have := h a (List.mem_reverse.1 ha)
    simpa using this

theorem get_none_iff {l : List (Str × Value)} {k : Str} : get (.obj l) k = none ↔ NoMember l k := by
  unfold get NoMember
  simp

theorem text_iff {l : List (Str × Value)} {k : Str} {d r : Option Str} : readStr (.obj l) k d = some r ↔ Text l k d r := by
  unfold readStr
  constructor
  · intro h
    cases e : get (.obj l) k with
    | none => rw [e] at h; cases h; exact .absent (get_none_iff.1 e)
    | some v =>
      rw [e] at h
      cases v <;> first | (cases h; exact .present _ (get_some_iff.1 e)) | cases h
  · rintro (h | ⟨s, h⟩)
    · rw [get_none_iff.2 h]
    · rw [get_some_iff.2 h]

theorem truth_iff {l : List (Str × Value)} {k : Str} {d r : Bool} : readBool (.obj l) k d = some r ↔ Truth l k d r := by
  unfold readBool
  constructor
  · intro h
    cases e : get (.obj l) k with
    | none => rw [e] at h; cases h; exact .absent (get_none_iff.1 e)
    | some v =>
      rw [e] at h
      cases v <;> first | (cases h; exact .present _ (get_some_iff.1 e)) | cases h
  · rintro (h | ⟨s, h⟩)
    · rw [get_none_iff.2 h]
    · rw [get_some_iff.2 h]

theorem saturated64 (n : Int) : Saturated 64 n (clamp64 n) := by
  simp only [Saturated, clamp64]; omega

theorem saturated32 (n : Int) : Saturated 32 n (clamp32 n) := by
  simp only [Saturated, clamp32]; omega

theorem saturated_unique {bits : Nat} {n m m' : Int} (h : Saturated bits n m) (h' : Saturated bits n m') : m = m' := by
  unfold Saturated at h h'
  have : (0 : Int) < 2 ^ (bits - 1) := Int.pow_pos (by decide)
  generalize (2 : Int) ^ (bits - 1) = b at *
  omega

theorem unsigned_lt (bits : Nat) (m : Int) : toUnsigned bits m < 2 ^ bits := by
  have h0 : (0 : Int) < 2 ^ bits := Int.pow_pos (by decide)
  have := Int.emod_lt_of_pos m h0
  have := Int.emod_nonneg m (Int.ne_of_gt h0)
  unfold toUnsigned
  zify
  omega

theorem unsigned_iff {bits v : Nat} {m : Int} : v = toUnsigned bits m ↔ v < 2 ^ bits ∧ ∃ q : Int, (v : Int) = m + q * 2 ^ bits := by
  have h0 : (0 : Int) < 2 ^ bits := Int.pow_pos (by decide)
  have hn := Int.emod_nonneg m (Int.ne_of_gt h0)
  constructor
  · rintro rfl
    refine ⟨unsigned_lt bits m, -(m / 2 ^ bits), ?_⟩
    have := Int.emod_add_mul_ediv m (2 ^ bits)
    rw [toUnsigned, Int.toNat_of_nonneg hn, Int.neg_mul, Int.mul_comm (m / 2 ^ bits)]
    omega
  · rintro ⟨hv, q, e⟩
    have hv' : (v : Int) < 2 ^ bits := by exact_mod_cast hv
    have : m % 2 ^ bits = v := by
      have hm : m = v + -q * 2 ^ bits := by rw [e, Int.neg_mul]; omega
      rw [hm, Int.add_mul_emod_self_right]
      exact Int.emod_eq_of_lt (by omega) hv'
    rw [toUnsigned, this]; rfl

theorem number_num {signed bits : Nat} {l : List (Str × Value)} {k : Str} {d r : Nat} {n m : Int}
    (h : HasMember l k (.num n)) (hm : Saturated signed n m) : r = toUnsigned bits m ↔ Number signed bits l k d r := by
  constructor
  · intro e
    obtain ⟨a, b⟩ := unsigned_iff.1 e
    exact .present n m r h hm a b
  · rintro (h' | ⟨n', m', r, h', hm', a, b⟩)
    · rw [← get_none_iff, get_some_iff.2 h] at h'; cases h'
    · have e := get_some_iff.2 h'
      rw [get_some_iff.2 h] at e
      cases e
      cases saturated_unique hm hm'
      exact unsigned_iff.2 ⟨a, b⟩

theorem u64_iff {l : List (Str × Value)} {k : Str} {d r : Nat} : readU64 (.obj l) k d = some r ↔ U64 l k d r := by
  unfold readU64
  cases e : get (.obj l) k with
  | none =>
    dsimp only
    constructor
    · intro h; cases h; exact .absent (get_none_iff.1 e)
    · rintro (h | ⟨_, _, _, h⟩)
      · rfl
      · rw [get_some_iff.2 h] at e; cases e
  | some v =>
    cases v with
    | num n =>
      dsimp only
      rw [Option.some.injEq, eq_comm]
      exact number_num (get_some_iff.1 e) (saturated64 n)
    | _ =>
      dsimp only
      constructor
      · intro h; cases h
      · rintro (h | ⟨_, _, _, h⟩)
        · rw [get_none_iff.2 h] at e; cases e
        · rw [get_some_iff.2 h] at e; cases e

theorem u32_iff {l : List (Str × Value)} {k : Str} {d r : Nat} : readU32 (.obj l) k d = some r ↔ U32 l k d r := by
  unfold readU32
  cases e : get (.obj l) k with
  | none =>
    dsimp only
    constructor
    · intro h; cases h; exact .absent (get_none_iff.1 e)
    · rintro (h | ⟨_, _, _, h⟩)
      · rfl
      · rw [get_some_iff.2 h] at e; cases e
  | some v =>
    cases v with
    | num n =>
      dsimp only
      rw [Option.some.injEq, eq_comm]
      exact number_num (get_some_iff.1 e) (saturated32 n)
    | _ =>
      dsimp only
      constructor
      · intro h; cases h
      · rintro (h | ⟨_, _, _, h⟩)
        · rw [get_none_iff.2 h] at e; cases e
        · rw [get_some_iff.2 h] at e; cases e

theorem u16_iff {l : List (Str × Value)} {k : Str} {d r : Nat} : readU16 (.obj l) k d = some r ↔ U16 l k d r := by
  unfold readU16
  cases e : get (.obj l) k with
  | none =>
    dsimp only
    constructor
    · intro h; cases h; exact .absent (get_none_iff.1 e)
    · rintro (h | ⟨_, _, _, h⟩)
      · rfl
      · rw [get_some_iff.2 h] at e; cases e
  | some v =>
    cases v with
    | num n =>
      dsimp only
      rw [Option.some.injEq, eq_comm]
      exact number_num (get_some_iff.1 e) (saturated32 n)
    | _ =>
      dsimp only
      constructor
      · intro h; cases h
      · rintro (h | ⟨_, _, _, h⟩)
        · rw [get_none_iff.2 h] at e; cases e
        · rw [get_some_iff.2 h] at e; cases e

theorem readAll_iff {α : Type} {f : Value → Option α} {P : Value → α → Prop} (h : ∀ j a, f j = some a ↔ P j a) :
    ∀ (vs : List Value) (as : List α), readAll f vs = some as ↔ List.Forall₂ P vs as
  | [], as => by
    unfold readAll
    constructor
    · intro e; cases e; exact .nil
    · intro e; cases e; rfl
  | v :: vs, as => by
    unfold readAll
    simp only [Option.bind_eq_some_iff, Option.map_eq_some_iff]
    constructor
    · rintro ⟨a, ha, bs, hb, rfl⟩
      exact .cons ((h v a).1 ha) ((readAll_iff h vs bs).1 hb)
    · rintro (_ | ⟨ha, hb⟩)
      exact ⟨_, (h v _).2 ha, _, (readAll_iff h vs _).2 hb, rfl⟩

theorem items_iff {α : Type} {f : Value → Option α} {P : Value → α → Prop} (h : ∀ j a, f j = some a ↔ P j a)
    {l : List (Str × Value)} {k : Str} {as : List α} : readArray (.obj l) k f = some as ↔ Items P l k as := by
  unfold readArray
  constructor
  · intro e
    cases e' : get (.obj l) k with
    | none => rw [e'] at e; cases e; exact .absent (get_none_iff.1 e')
    | some v =>
      rw [e'] at e
      cases v with
      | arr vs => exact .present vs as (get_some_iff.1 e') ((readAll_iff h vs as).1 e)
      | _ => cases e
  · rintro (h' | ⟨vs, _, h', ha⟩)
    · rw [get_none_iff.2 h']
    · rw [get_some_iff.2 h']; exact (readAll_iff h vs as).2 ha

theorem special_iff {l : List (Str × Value)} {plain special : Str} {b : Bool} {s : Option Str} :
    readSpecial (.obj l) plain special = some (b, s) ↔ SpecialText l plain special b s := by
  unfold readSpecial SpecialText
  simp only [← get_some_iff, ← get_none_iff]
  constructor
  · intro h
    split at h
    · rename_i t e; cases h; exact .inl ⟨t, e, rfl, rfl⟩
    · cases h
    · rename_i e
      refine .inr ⟨e, ?_⟩
      split at h
      · rename_i t e; cases h; exact .inl ⟨t, e, rfl, rfl⟩
      · cases h
      · rename_i e; cases h; exact .inr ⟨e, rfl, rfl⟩
  · rintro (⟨t, e, rfl, rfl⟩ | ⟨e, ⟨t, e', rfl, rfl⟩ | ⟨e', rfl, rfl⟩⟩)
    · rw [e]
    · rw [e, e']
    · rw [e, e']

/-- A reader that refuses what is not an object. -/
theorem by_object {α : Type} {f : Value → Option α} {a : α} {D : List (Str × Value) → Prop}
    (h : ∀ j, isObject j = false → f j = none) (hl : ∀ l, f (.obj l) = some a ↔ D l) (j : Value) :
    f j = some a ↔ ∃ l, j = .obj l ∧ D l := by
  cases j with
  | obj l => simp [hl]
  | _ => rw [h _ (by rfl)]; simp

end Satyr.Json
