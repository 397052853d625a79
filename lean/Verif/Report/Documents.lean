import Verif.Json.DocumentsProps
import Verif.Report.Model
import Mathlib.Data.List.Perm.Basic
import Mathlib.Data.List.Nodup
import Mathlib.Data.List.Induction
import Mathlib.Tactic.Tauto
/-!
# What is read from any document of a report (C123)
-/
namespace Satyr.Report
open Satyr.CStr Satyr.Json Satyr.Frames Satyr.Normalize

/-! ## Specification -/

/-- The names of the types. -/
def typesByName : List (Str × ReportType) :=
  [(c!"core", .core), (c!"python", .python), (c!"kerneloops", .kerneloops), (c!"java", .java), (c!"gdb", .gdb),
   (c!"ruby", .ruby), (c!"javascript", .javascript)]

/-- The type with that name; any other name, or none, is invalid. -/
def TypeDoc (name : Option Str) (t : ReportType) : Prop :=
  (∃ s, name = some s ∧ (s, t) ∈ typesByName) ∨ (∀ s u, name = some s → (s, u) ∉ typesByName) ∧ t = .invalid

/-- The array of modules of a kernel oops is read wrongly. -/
def BadModules (j : Value) : Prop :=
  ∃ l version rawOops taint vs, j = .obj l ∧ Text l c!"version" none version ∧ Text l c!"raw_oops" none rawOops ∧ TaintsDoc l taint ∧
    HasMember l c!"modules" (.arr vs) ∧ ∀ names, List.Forall₂ StrDoc vs names → 127 < names.length

/-- The stack trace is read if it can be, otherwise there is none. -/
def Readable {α : Type} (D : Value → α → Prop) (wrap : α → Stacktrace) (j : Value) (o : Option Stacktrace) : Prop :=
  (∃ t, D j t ∧ o = some (wrap t)) ∨ (∀ t, ¬ D j t) ∧ o = none

/-- The stack trace of a problem. Those of GDB and JavaScript are not read. -/
def TraceDoc (j : Value) (o : Option Stacktrace) : ReportType → Prop
  | .core => Readable CoreDoc .core j o
  | .python => Readable PythonDoc .python j o
  | .kerneloops => Readable KoopsDoc .koops j o ∧ ¬ BadModules j
  | .java => Readable JavaDoc .java j o
  | .ruby => Readable RubyDoc .ruby j o
  | _ => o = none

/-- The user, which is a member of the whole document. -/
def UserDoc (l : List (Str × Value)) (isRoot isLocal : Bool) : Prop :=
  NoMember l c!"user" ∧ isRoot = false ∧ isLocal = true ∨
    ∃ m, HasMember l c!"user" (.obj m) ∧ Truth m c!"root" false isRoot ∧ Truth m c!"local" true isLocal

/-- The problem; without it the user is not read. -/
def ProblemDoc (l : List (Str × Value)) (r : UReport) : Prop :=
  NoMember l c!"problem" ∧ r.type = .invalid ∧ r.component = none ∧ r.userRoot = false ∧ r.userLocal = true ∧ r.serial = 0 ∧
      r.stacktrace = none ∨
    ∃ m, HasMember l c!"problem" (.obj m) ∧ (∃ type, Text m c!"type" none type ∧ TypeDoc type r.type) ∧
      Text m c!"component" none r.component ∧ UserDoc l r.userRoot r.userLocal ∧ U32 m c!"serial" 0 r.serial ∧
      TraceDoc (.obj m) r.stacktrace r.type

/-- The reporter: the names of this library unless it is given. -/
def ReporterDoc (name version : Str) (l : List (Str × Value)) (r : UReport) : Prop :=
  NoMember l c!"reporter" ∧ r.reporterName = name ∧ r.reporterVersion = version ∨
    ∃ m, HasMember l c!"reporter" (.obj m) ∧ Text m c!"name" (some name) (some r.reporterName) ∧
      Text m c!"version" (some version) (some r.reporterVersion)

/-- The authentication: the members with strings, each once. -/
def AuthDoc (l : List (Str × Value)) (auth : List (Str × Str)) : Prop :=
  NoMember l c!"auth" ∧ auth = [] ∨
    ∃ m, HasMember l c!"auth" (.obj m) ∧ (auth.map Prod.fst).Nodup ∧ ∀ k s, (k, s) ∈ auth ↔ HasMember m k (.str s)

/-- A document of a report. -/
def ReportDoc (name version : Str) (j : Value) (r : UReport) : Prop :=
  ∃ l, j = .obj l ∧ U32 l c!"ureport_version" 2 r.version ∧ ReporterDoc name version l r ∧
    (NoMember l c!"os" ∧ r.os = none ∨ ∃ v o, HasMember l c!"os" v ∧ OsDoc v o ∧ r.os = some o) ∧
    (NoMember l c!"packages" ∧ r.packages = [] ∨ ∃ v, HasMember l c!"packages" v ∧ PackagesDoc v r.packages) ∧
    ProblemDoc l r ∧ AuthDoc l r.auth

/-! ## Proofs -/

theorem modules_read (vs : List Value) :
    (∃ names, Koops.readModules 128 (128 * 8) 0 vs = .ok names) ∨ Koops.readModules 128 (128 * 8) 0 vs = .ub := by
  have : ∀ (vs : List Value) (a b i : Nat), (∃ names, Koops.readModules a b i vs = .ok names) ∨ Koops.readModules a b i vs = .ub := by
    intro vs
    induction vs with
    | nil => intro a b i; unfold Koops.readModules; split <;> simp
    | cons v vs ih =>
      intro a b i
      cases v with
      | str s =>
        unfold Koops.readModules
        have key : ∀ (c : Prop) [Decidable c] (a b : Nat),
            (∃ names, (if c then (do let r ← Koops.readModules a b (i + 1) vs; .ok (s :: r)) else Out.ub) = .ok names) ∨
              (if c then (do let r ← Koops.readModules a b (i + 1) vs; .ok (s :: r)) else Out.ub) = .ub := by
          intro c _ a b
          by_cases hc : c
          · rw [if_pos hc]
            obtain ⟨names, e⟩ | e := ih a b (i + 1)
            · rw [e]; exact .inl ⟨_, rfl⟩
            · rw [e]; exact .inr rfl
          · rw [if_neg hc]; exact .inr rfl
        exact key _ _ _
      | _ => exact .inr rfl
  exact this vs _ _ _

/-- **C123** (kernel oopses): when the array of modules is read wrongly. -/
theorem C123_koops_undefined (j : Value) : Koops.fromJson j = .ub ↔ BadModules j := by
  have hhead : ∀ a, Koops.headFromJson j = some a ↔ ∃ l, j = .obj l ∧
      Text l c!"version" none a.1 ∧ Text l c!"raw_oops" none a.2.1 ∧ TaintsDoc l a.2.2 := by
    rintro ⟨a, b, c⟩
    refine by_object (f := Koops.headFromJson) (fun j h => by unfold Koops.headFromJson; rw [if_pos h]) (fun l => ?_) j
    unfold Koops.headFromJson
    rw [if_neg (by simp [isObject])]
    simp only [Option.bind_eq_some_iff, text_iff, taints_iff]
    constructor
    · rintro ⟨a0, h0, a1, h1, a2, h2, e⟩
      cases e
      exact ⟨h0, h1, h2⟩
    · rintro ⟨h0, h1, h2⟩
      exact ⟨_, h0, _, h1, _, h2, rfl⟩
  have hmod : ∀ l, Koops.modulesFromJson (.obj l) = .ub ↔
      ∃ vs, HasMember l c!"modules" (.arr vs) ∧ ∀ names, List.Forall₂ StrDoc vs names → 127 < names.length := by
    intro l
    unfold Koops.modulesFromJson
    simp only [← get_some_iff]
    cases get (.obj l) c!"modules" with
    | none => simp
    | some v =>
      cases v with
      | arr vs =>
        have hr := fun names => readModules_iff vs 0 (by omega) names
        dsimp only
        constructor
        · intro h
          refine ⟨vs, rfl, fun names hn => ?_⟩
          by_contra hle
          rw [(hr names).2 ⟨hn, by omega⟩] at h
          cases h
        · rintro ⟨vs', e, h⟩
          cases e
          obtain ⟨names, e⟩ | e := modules_read vs
          · have := (hr names).1 e
            have := h names this.1
            omega
          · rw [e]; rfl
      | _ => simp
  unfold Koops.fromJson BadModules
  cases e : Koops.headFromJson j with
  | none =>
    constructor
    · intro h; cases h
    · rintro ⟨l, a, b, c, vs, hj, h0, h1, h2, _⟩
      rw [(hhead (a, b, c)).2 ⟨l, hj, h0, h1, h2⟩] at e
      cases e
  | some a =>
    obtain ⟨version, rawOops, taint⟩ := a
    obtain ⟨l, rfl, h0, h1, h2⟩ := (hhead _).1 e
    dsimp only
    constructor
    · intro h
      have : Koops.modulesFromJson (.obj l) = .ub := by
        cases e' : Koops.modulesFromJson (.obj l) with
        | ok o => rw [e'] at h; cases o <;> cases h
        | abort => rw [e'] at h; cases h
        | ub => rfl
      obtain ⟨vs, h3, h4⟩ := (hmod l).1 this
      exact ⟨l, version, rawOops, taint, vs, rfl, h0, h1, h2, h3, h4⟩
    · rintro ⟨l', a, b, c, vs, hj, _, _, _, h3, h4⟩
      cases hj
      rw [(hmod l).2 ⟨vs, h3, h4⟩]

theorem koops_not_abort (j : Value) : Koops.fromJson j ≠ .abort := by
  unfold Koops.fromJson
  cases Koops.headFromJson j with
  | none => simp
  | some a =>
    obtain ⟨version, rawOops, taint⟩ := a
    dsimp only
    unfold Koops.modulesFromJson
    cases get j c!"modules" with
    | none => simp
    | some v =>
      cases v with
      | arr vs =>
        dsimp only
        obtain ⟨names, e⟩ | e := modules_read vs <;> rw [e] <;> simp [bind, Out.bind]
      | _ => simp

theorem readable_iff {α : Type} {f : Value → Option α} {D : Value → α → Prop} (h : ∀ j t, f j = some t ↔ D j t)
    {wrap : α → Stacktrace} {j : Value} {o : Option Stacktrace} : (f j).map wrap = o ↔ Readable D wrap j o := by
  unfold Readable
  simp only [← h]
  cases f j with
  | none => simp [eq_comm]
  | some a => simp [eq_comm]

theorem trace_iff {type : ReportType} {j : Value} {o : Option Stacktrace} : traceFromJson type j = .ok o ↔ TraceDoc j o type := by
  cases type with
  | core => simp [traceFromJson, TraceDoc, readable_iff C123_core]
  | python => simp [traceFromJson, TraceDoc, readable_iff C123_python]
  | java => simp [traceFromJson, TraceDoc, readable_iff C123_java]
  | ruby => simp [traceFromJson, TraceDoc, readable_iff C123_ruby]
  | kerneloops =>
    have h1 := C123_koops j
    have h2 := C123_koops_undefined j
    have h3 := koops_not_abort j
    unfold traceFromJson TraceDoc Readable
    dsimp only
    cases e : Koops.fromJson j with
    | ok x =>
      rw [e] at h1 h2
      simp only [Out.ok.injEq] at h1
      simp only [reduceCtorEq, false_iff] at h2
      simp only [← h1, h2]
      cases x with
      | none => simp [pure, Out.bind_ok, eq_comm]
      | some t => simp [pure, Out.bind_ok, eq_comm]
    | abort => exact absurd e h3
    | ub =>
      simp [h2.1 e, bind, Out.bind]
  | _ => simp [traceFromJson, TraceDoc, eq_comm]

theorem type_iff {name : Option Str} {t : ReportType} : ReportType.ofCode (typeFromString name) = t ↔ TypeDoc name t := by
  have known : ∀ p ∈ typesByName, ReportType.ofCode (typeFromString (some p.1)) = p.2 := by decide +kernel
  have nodup : ∀ p ∈ typesByName, ∀ q ∈ typesByName, p.1 = q.1 → p.2 = q.2 := by decide +kernel
  by_cases h : ∃ s u, name = some s ∧ (s, u) ∈ typesByName
  · obtain ⟨s, u, rfl, hu⟩ := h
    have e := known _ hu
    dsimp only at e
    rw [e]
    unfold TypeDoc
    constructor
    · rintro rfl; exact .inl ⟨s, rfl, hu⟩
    · rintro (⟨s', e', h'⟩ | ⟨h', _⟩)
      · cases e'
        exact nodup _ hu _ h' rfl
      · exact absurd hu (h' s u rfl)
  · have hn : ∀ s u, name = some s → (s, u) ∉ typesByName := fun s u e hm => h ⟨s, u, e, hm⟩
    have hn' : ∀ s u, (s, u) ∈ typesByName → name ≠ some s := fun s u hm e => hn s u e hm
    have : typeFromString name = 0 := by
      unfold typeFromString typeNames
      simp only [fromStringLoop, strcmp0_eq_zero, @eq_comm _ _ name]
      split
      · rfl
      rw [if_neg (hn' _ .core (by decide)), if_neg (hn' _ .python (by decide)), if_neg (hn' _ .kerneloops (by decide)),
        if_neg (hn' _ .java (by decide)), if_neg (hn' _ .gdb (by decide)), if_neg (hn' _ .ruby (by decide)),
        if_neg (hn' _ .javascript (by decide))]
    rw [this]
    unfold TypeDoc
    constructor
    · rintro rfl; exact .inr ⟨hn, rfl⟩
    · rintro (⟨s', e', h'⟩ | ⟨_, rfl⟩)
      · exact absurd h' (hn s' t e')
      · rfl

theorem user_iff {l : List (Str × Value)} {a b : Bool} : readUser (.obj l) false true = some (a, b) ↔ UserDoc l a b := by
  unfold readUser UserDoc
  simp only [← get_some_iff, ← get_none_iff]
  cases get (.obj l) c!"user" with
  | none => simp [eq_comm]
  | some u =>
    cases u with
    | obj m =>
      simp only [isObject, Bool.true_eq_false, if_false, Option.bind_eq_some_iff, truth_iff, Option.some.injEq, Prod.mk.injEq,
        reduceCtorEq, false_and, false_or, Value.obj.injEq]
      constructor
      · rintro ⟨x, hx, y, hy, rfl, rfl⟩; exact ⟨m, rfl, hx, hy⟩
      · rintro ⟨_, rfl, hx, hy⟩; exact ⟨_, hx, _, hy, rfl, rfl⟩
    | _ => simp [isObject]

theorem reporter_iff {name version : Str} {l : List (Str × Value)} {r : UReport} :
    readReporter (.obj l) name version = some (r.reporterName, r.reporterVersion) ↔ ReporterDoc name version l r := by
  have some_of : ∀ {m k d x}, Text m k (some d) x → ∃ s, x = some s := by
    rintro m k d x (h | ⟨s, h⟩)
    · exact ⟨_, rfl⟩
    · exact ⟨_, rfl⟩
  unfold readReporter ReporterDoc
  simp only [← get_some_iff, ← get_none_iff]
  cases get (.obj l) c!"reporter" with
  | none => simp [eq_comm]
  | some u =>
    cases u with
    | obj m =>
      simp only [isObject, Bool.true_eq_false, if_false, Option.bind_eq_some_iff, text_iff, Option.some.injEq, Prod.mk.injEq,
        reduceCtorEq, false_and, false_or, Value.obj.injEq]
      constructor
      · rintro ⟨x, hx, y, hy, h1, h2⟩
        obtain ⟨s, rfl⟩ := some_of hx
        obtain ⟨s', rfl⟩ := some_of hy
        rw [Option.getD_some] at h1 h2
        rw [← h1, ← h2]
        exact ⟨m, rfl, hx, hy⟩
      · rintro ⟨_, rfl, hx, hy⟩; exact ⟨_, hx, _, hy, rfl, rfl⟩
    | _ => simp [isObject]

theorem os_iff {l : List (Str × Value)} {x : Option Os.OperatingSystem} : readOs (.obj l) = some x ↔
    (NoMember l c!"os" ∧ x = none ∨ ∃ v o, HasMember l c!"os" v ∧ OsDoc v o ∧ x = some o) := by
  unfold readOs
  simp only [← get_some_iff, ← get_none_iff, ← C123_os]
  cases get (.obj l) c!"os" with
  | none => simp [eq_comm]
  | some u => simp [eq_comm]

theorem packages_iff {l : List (Str × Value)} {x : List Rpm.Package} : readPackages (.obj l) = some x ↔
    (NoMember l c!"packages" ∧ x = [] ∨ ∃ v, HasMember l c!"packages" v ∧ PackagesDoc v x) := by
  unfold readPackages
  simp only [← get_some_iff, ← get_none_iff, ← C123_packages]
  cases get (.obj l) c!"packages" with
  | none => simp [eq_comm]
  | some u => simp [eq_comm]

theorem problem_iff {l : List (Str × Value)} {r : UReport} : readProblemTrace (.obj l) =
    .ok (some (r.type, r.component, (r.userRoot, r.userLocal), r.serial, r.stacktrace)) ↔ ProblemDoc l r := by
  unfold readProblemTrace ProblemDoc
  simp only [← get_some_iff, ← get_none_iff]
  cases get (.obj l) c!"problem" with
  | none =>
    simp only [Out.ok.injEq, Option.some.injEq, Prod.mk.injEq, reduceCtorEq, false_and, exists_false, or_false, true_and]
    constructor
    · rintro ⟨h1, h2, ⟨h3, h4⟩, h5, h6⟩; exact ⟨h1.symm, h2.symm, h3.symm, h4.symm, h5.symm, h6.symm⟩
    · rintro ⟨h1, h2, h3, h4, h5, h6⟩; exact ⟨h1.symm, h2.symm, ⟨h3.symm, h4.symm⟩, h5.symm, h6.symm⟩
  | some p =>
    simp only [reduceCtorEq, false_and, false_or, Option.some.injEq]
    have hp : ∀ m a b c d e, readProblem (.obj l) (.obj m) = some (a, b, (c, d), e) ↔
        (∃ type, Text m c!"type" none type ∧ TypeDoc type a) ∧ Text m c!"component" none b ∧ UserDoc l c d ∧ U32 m c!"serial" 0 e := by
      intro m a b c d e
      unfold readProblem
      rw [if_neg (by simp [isObject])]
      simp only [Option.bind_eq_some_iff, text_iff, u32_iff, Prod.exists, user_iff]
      constructor
      · rintro ⟨a0, h0, a1, h1, a2, a2', h2, a3, h3, e⟩
        cases e
        exact ⟨⟨_, h0, type_iff.1 rfl⟩, h1, h2, h3⟩
      · rintro ⟨⟨_, h0, ht⟩, h1, h2, h3⟩
        refine ⟨_, h0, _, h1, _, _, h2, _, h3, ?_⟩
        rw [type_iff.2 ht]
    constructor
    · intro h
      cases e : readProblem (.obj l) p with
      | none => rw [e] at h; cases h
      | some x =>
        obtain ⟨a, b, ⟨c, d⟩, s⟩ := x
        rw [e] at h
        dsimp only at h
        cases e' : traceFromJson a p with
        | ok o =>
          rw [e'] at h
          cases h
          by_cases ho : ∃ m, p = .obj m
          · obtain ⟨m, rfl⟩ := ho
            obtain ⟨h0, h1, h2, h3⟩ := (hp _ _ _ _ _ _).1 e
            exact ⟨m, rfl, h0, h1, h2, h3, trace_iff.1 e'⟩
          · unfold readProblem at e
            rw [if_pos] at e
            · cases e
            · cases p <;> first | rfl | exact absurd ⟨_, rfl⟩ ho
        | abort => rw [e'] at h; cases h
        | ub => rw [e'] at h; cases h
    · rintro ⟨m, rfl, h0, h1, h2, h3, h4⟩
      rw [(hp _ _ _ _ _ _).2 ⟨h0, h1, h2, h3⟩]
      dsimp only
      rw [trace_iff.2 h4]
      rfl

/-! ### Authentication -/

theorem mem_addEntry {k : Str} {v : Value} {l : List (Str × Value)} (h : (l.map Prod.fst).Nodup) (k' : Str) (v' : Value) :
    (k', v') ∈ addEntry k v l ↔ k' = k ∧ v' = v ∨ k' ≠ k ∧ (k', v') ∈ l := by
  induction l with
  | nil => simp [addEntry]
  | cons e l ih =>
    obtain ⟨a, b⟩ := e
    rw [List.map_cons, List.nodup_cons] at h
    unfold addEntry
    by_cases hk : a = k
    · subst hk
      have hn : ∀ v, (a, v) ∉ l := fun v hm => h.1 (List.mem_map.2 ⟨_, hm, rfl⟩)
      simp only [if_true, List.mem_cons, Prod.mk.injEq]
      constructor
      · rintro (⟨rfl, rfl⟩ | hm)
        · exact .inl ⟨rfl, rfl⟩
        · by_cases e : k' = a
          · subst e; exact absurd hm (hn v')
          · exact .inr ⟨e, .inr hm⟩
      · rintro (⟨rfl, rfl⟩ | ⟨hne, ⟨rfl, rfl⟩ | hm⟩)
        · exact .inl ⟨rfl, rfl⟩
        · exact absurd rfl hne
        · exact .inr hm
    · simp only [hk, if_false, List.mem_cons, Prod.mk.injEq, ih h.2]
      constructor
      · rintro (⟨rfl, rfl⟩ | ⟨rfl, rfl⟩ | ⟨hne, hm⟩)
        · exact .inr ⟨hk, .inl ⟨rfl, rfl⟩⟩
        · exact .inl ⟨rfl, rfl⟩
        · exact .inr ⟨hne, .inr hm⟩
      · rintro (⟨rfl, rfl⟩ | ⟨hne, ⟨rfl, rfl⟩ | hm⟩)
        · exact .inr (.inl ⟨rfl, rfl⟩)
        · exact .inl ⟨rfl, rfl⟩
        · exact .inr (.inr ⟨hne, hm⟩)

theorem nodup_addEntry {k : Str} {v : Value} {l : List (Str × Value)} (h : (l.map Prod.fst).Nodup) :
    ((addEntry k v l).map Prod.fst).Nodup := by
  have keys : ∀ (l : List (Str × Value)) x, x ∈ (addEntry k v l).map Prod.fst → x = k ∨ x ∈ l.map Prod.fst := by
    intro l
    induction l with
    | nil => intro x; simp [addEntry]
    | cons e l ih =>
      intro x
      unfold addEntry
      split
      · simp only [List.map_cons, List.mem_cons]; tauto
      · simp only [List.map_cons, List.mem_cons]
        rintro (rfl | hx)
        · exact .inr (.inl rfl)
        · obtain hx | hx := ih x hx
          · exact .inl hx
          · exact .inr (.inr hx)
  induction l with
  | nil => simp [addEntry]
  | cons e l ih =>
    rw [List.map_cons, List.nodup_cons] at h
    unfold addEntry
    split
    · rename_i hk
      rw [List.map_cons, List.nodup_cons]
      exact ⟨hk ▸ h.1, h.2⟩
    · rename_i hk
      rw [List.map_cons, List.nodup_cons]
      refine ⟨fun hm => ?_, ih h.2⟩
      obtain h' | h' := keys l _ hm
      · exact hk h'
      · exact h.1 h'

theorem entries_spec (m : List (Str × Value)) :
    ((entries m).map Prod.fst).Nodup ∧ ∀ k v, (k, v) ∈ entries m ↔ HasMember m k v := by
  induction m using List.reverseRecOn with
  | nil =>
    refine ⟨by simp [entries], fun k v => ?_⟩
    simp [entries, HasMember]
  | append_singleton m e ih =>
    obtain ⟨a, b⟩ := e
    have he : entries (m ++ [(a, b)]) = addEntry a b (entries m) := by simp [entries]
    rw [he]
    refine ⟨nodup_addEntry ih.1, fun k v => ?_⟩
    rw [mem_addEntry ih.1, ih.2, ← get_some_iff, ← get_some_iff]
    simp only [Json.get, List.reverse_append, List.reverse_cons, List.reverse_nil, List.nil_append, List.cons_append,
      List.find?_cons]
    by_cases hk : a = k
    · subst hk; simp [eq_comm]
    · have : (a == k) = false := by simpa using hk
      simp [this, Ne.symm hk, eq_comm]

theorem readAuthLoop_eq (acc : List (Str × Str)) (l : List (Str × Value)) : readAuthLoop acc l =
    (l.filterMap fun m => match m.2 with | .str s => some (m.1, s) | _ => none).reverse ++ acc := by
  induction l generalizing acc with
  | nil => rfl
  | cons e l ih =>
    obtain ⟨k, v⟩ := e
    cases v <;> simp [readAuthLoop, ih]

theorem auth_spec (m : List (Str × Value)) : ((readAuthLoop [] (entries m).reverse).map Prod.fst).Nodup ∧
    ∀ k s, (k, s) ∈ readAuthLoop [] (entries m).reverse ↔ HasMember m k (.str s) := by
  obtain ⟨h1, h2⟩ := entries_spec m
  rw [readAuthLoop_eq]
  simp only [List.append_nil, List.filterMap_reverse, List.reverse_reverse]
  constructor
  · generalize entries m = l at h1
    clear h2
    induction l with
    | nil => simp
    | cons e l ih =>
      obtain ⟨k, v⟩ := e
      rw [List.map_cons, List.nodup_cons] at h1
      cases v with
      | str s =>
        simp only [List.filterMap_cons, List.map_cons, List.nodup_cons]
        refine ⟨fun hm => h1.1 ?_, ih h1.2⟩
        obtain ⟨⟨k', s'⟩, hm, e⟩ := List.mem_map.1 hm
        obtain ⟨⟨a, b⟩, hm, e'⟩ := List.mem_filterMap.1 hm
        cases b <;> simp at e'
        dsimp only at e
        rw [← e, ← e'.1]
        exact List.mem_map.2 ⟨_, hm, rfl⟩
      | _ => simpa using ih h1.2
  · intro k s
    rw [← h2, List.mem_filterMap]
    constructor
    · rintro ⟨⟨a, b⟩, hm, e'⟩
      cases b <;> simp at e'
      rw [← e'.1, ← e'.2]; exact hm
    · intro hm
      exact ⟨_, hm, rfl⟩

theorem auth_of {l : List (Str × Value)} {a : List (Str × Str)} (h : readAuth (.obj l) = some a) : AuthDoc l a := by
  unfold readAuth at h
  cases e : get (.obj l) c!"auth" with
  | none => rw [e] at h; cases h; exact .inl ⟨get_none_iff.1 e, rfl⟩
  | some v =>
    rw [e] at h
    cases v with
    | obj m => cases h; exact .inr ⟨m, get_some_iff.1 e, auth_spec m⟩
    | _ => cases h

theorem of_auth {l : List (Str × Value)} {a : List (Str × Str)} (h : AuthDoc l a) : ∃ a', readAuth (.obj l) = some a' ∧ a'.Perm a := by
  unfold readAuth
  obtain ⟨h, rfl⟩ | ⟨m, h, h1, h2⟩ := h
  · rw [get_none_iff.2 h]; exact ⟨_, rfl, .refl _⟩
  · rw [get_some_iff.2 h]
    refine ⟨_, rfl, ?_⟩
    obtain ⟨k1, k2⟩ := auth_spec m
    rw [List.perm_ext_iff_of_nodup (List.Nodup.of_map _ k1) (List.Nodup.of_map _ h1)]
    rintro ⟨k, s⟩
    rw [k2, h2]

/-! ### The report -/

theorem head_iff {name version : Str} {j : Value} {r : UReport} :
    readHead j name version = some (r.version, (r.reporterName, r.reporterVersion), r.os, r.packages) ↔
    ∃ l, j = .obj l ∧ U32 l c!"ureport_version" 2 r.version ∧ ReporterDoc name version l r ∧
    (NoMember l c!"os" ∧ r.os = none ∨ ∃ v o, HasMember l c!"os" v ∧ OsDoc v o ∧ r.os = some o) ∧
    (NoMember l c!"packages" ∧ r.packages = [] ∨ ∃ v, HasMember l c!"packages" v ∧ PackagesDoc v r.packages) := by
  refine by_object (f := fun j => readHead j name version)
    (fun j h => by unfold readHead; rw [if_pos h]) (fun l => ?_) j
  unfold readHead
  rw [if_neg (by simp [isObject])]
  rw [← reporter_iff]
  simp only [Option.bind_eq_some_iff, u32_iff, os_iff, packages_iff]
  constructor
  · rintro ⟨a0, h0, ⟨a1, a1'⟩, h1, a2, h2, a3, h3, e⟩
    simp only [Option.some.injEq, Prod.mk.injEq] at e
    obtain ⟨rfl, ⟨rfl, rfl⟩, rfl, rfl⟩ := e
    exact ⟨h0, h1, h2, h3⟩
  · rintro ⟨h0, h1, h2, h3⟩
    exact ⟨_, h0, _, h1, _, h2, _, h3, rfl⟩

theorem fromJson_iff {name version : Str} {j : Value} {r : UReport} : fromJson name version j = .ok (some r) ↔
    readHead j name version = some (r.version, (r.reporterName, r.reporterVersion), r.os, r.packages) ∧
    readProblemTrace j = .ok (some (r.type, r.component, (r.userRoot, r.userLocal), r.serial, r.stacktrace)) ∧
    readAuth j = some r.auth := by
  unfold fromJson
  cases readHead j name version with
  | none => simp
  | some h =>
    obtain ⟨v, ⟨rn, rv⟩, o, ps⟩ := h
    dsimp only
    cases readProblemTrace j with
    | ok x =>
      cases x with
      | none => simp [Out.bind_ok]
      | some p =>
        obtain ⟨a, b, ⟨c, d⟩, e, f⟩ := p
        cases readAuth j with
        | none => simp [Out.bind_ok, pure]
        | some au =>
          obtain ⟨r1, r2, r3, r4, r5, r6, r7, r8, r9, r10, r11, r12⟩ := r
          simp only [Out.bind_ok, pure, Option.map_some, Out.ok.injEq, Option.some.injEq, UReport.mk.injEq, Prod.mk.injEq]
          tauto
    | abort => simp [bind, Out.bind]
    | ub => simp [bind, Out.bind]

/-- **C123** (reports): what is read is as the document says. -/
theorem C123_report {name version : Str} {j : Value} {r : UReport} (h : fromJson name version j = .ok (some r)) :
    ReportDoc name version j r := by
  obtain ⟨h1, h2, h3⟩ := fromJson_iff.1 h
  obtain ⟨l, rfl, k1, k2, k3, k4⟩ := head_iff.1 h1
  exact ⟨l, rfl, k1, k2, k3, k4, problem_iff.1 h2, auth_of h3⟩

/-- **C123** (reports): every document of a report is read; only the order of the authentication entries is left open. -/
theorem C123_report_read {name version : Str} {j : Value} {r : UReport} (h : ReportDoc name version j r) :
    ∃ auth, fromJson name version j = .ok (some { r with auth }) ∧ auth.Perm r.auth := by
  obtain ⟨l, rfl, k1, k2, k3, k4, k5, k6⟩ := h
  obtain ⟨a, e, hp⟩ := of_auth k6
  exact ⟨a, fromJson_iff.2 ⟨head_iff.2 ⟨l, rfl, k1, k2, k3, k4⟩, problem_iff.2 k5, e⟩, hp⟩

/-- A document with two members of the same name, a number that is too large, a thread with a mark, an entry of the
authentication that is not a string, and the user outside the problem. -/
example : ∃ r, ReportDoc c!"satyr" c!"0.42" (.obj
      [(c!"ureport_version", .num 5000000000), (c!"user", .obj [(c!"root", .bool true)]),
       (c!"auth", .obj [(c!"a", .num 1), (c!"b", .str c!"x"), (c!"b", .str c!"y")]),
       (c!"problem", .obj [(c!"type", .str c!"java"), (c!"type", .str c!"core"), (c!"signal", .num 70000),
         (c!"stacktrace", .arr [.obj [], .obj [(c!"crash_thread", .bool true), (c!"frames", .arr [.obj [(c!"address", .num (-1))]])]])])]) r ∧
    r.version = 2 ^ 31 - 1 ∧ r.userRoot = true ∧ r.userLocal = true ∧ r.auth = [(c!"b", c!"y")] ∧ r.type = .core ∧
    r.stacktrace = some (.core
      { signal := 4464, executable := none, onlyCrashThread := false, crashThread := some 1,
        threads := [{ id := 0, frames := [] },
                    { id := 0, frames := [{ address := 2 ^ 64 - 1, buildIdOffset := 2 ^ 64 - 1, fingerprintHashed := true }] }] }) := by
  refine ⟨_, C123_report (r := ?_) ?_, ?_⟩
  rotate_left
  · rfl
  · exact ⟨rfl, rfl, rfl, rfl, rfl, rfl⟩

example : ∃ t, PythonDoc (.obj [(c!"stacktrace", .arr [.obj [(c!"special_file", .str c!"string"), (c!"file_line", .num 3)]])]) t ∧
    t.frames.map PythonFrame.specialFile = [true] := ⟨_, (C123_python _ _).1 rfl, rfl⟩

example : ∃ t, RubyDoc (.obj [(c!"stacktrace", .arr [.obj [(c!"block_level", .num (-1))]])]) t ∧
    t.frames.map RubyFrame.blockLevel = [2 ^ 32 - 1] := ⟨_, (C123_ruby _ _).1 rfl, rfl⟩

example : ∃ t, JavaDoc (.obj [(c!"threads", .arr [.obj [(c!"frames", .arr [.obj [(c!"is_native", .bool true)]])]])]) t ∧
    t.threads.length = 1 := ⟨_, (C123_java _ _).1 rfl, rfl⟩

example : ∃ t, JsDoc (.obj [(c!"platform", .obj [(c!"engine", .str c!"V8"), (c!"runtime", .str c!"<unknown>")])]) t ∧
    t.platform = 16 := ⟨_, (C123_javascript _ _).1 rfl, rfl⟩

example : ∃ t, KoopsDoc (.obj [(c!"taint_flags", .arr [.str c!"warning", .str c!"other"]), (c!"modules", .arr [.str c!"fuse"])]) t ∧
    t.taint.warning = true ∧ t.modules = some [c!"fuse"] := ⟨_, (C123_koops _ _).1 rfl, rfl, rfl⟩

example : BadModules (.obj [(c!"modules", .arr [.null])]) := (C123_koops_undefined _).1 rfl

example : ∃ o, OsDoc (.obj [(c!"name", .str c!"fedora"), (c!"desktop", .num 1)]) o ∧ o.desktop = none :=
  ⟨_, (C123_os _ _).1 rfl, rfl⟩

example : ∃ l, PackagesDoc (.arr [.obj [(c!"name", .str c!"a"), (c!"package_role", .str c!"affected")]]) l ∧ l.length = 1 :=
  ⟨_, (C123_packages _ _).1 rfl, rfl⟩

end Satyr.Report
