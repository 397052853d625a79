import Verif.Abrt.Model
import Verif.Rpm.Names
import Verif.Report.Types
import Mathlib.Tactic.Tauto
import Mathlib.Tactic.ByContra
/-!
# What is read from an ABRT problem directory
-/
namespace Satyr.Abrt
open Satyr.CStr Satyr.Frames Satyr.Report
open Satyr.Normalize (CoreFrame)

/-! ## Specification -/

/-- The function returns a result. -/
def Gives {α : Type} (m : Bool) (x : M α) (a : α) : Prop := ∃ m', x m = .ok (some a, m')

/-- The function returns null. -/
def Null {α : Type} (m : Bool) (x : M α) : Prop := ∃ m', x m = .ok (none, m')

/-- The text of a number of occurrences: optional white space, an optional sign and decimal digits up to the end of the text. Only
zero may have a minus sign. -/
def CountText (s : Str) (n : Nat) : Prop :=
  ∃ ws sign ds : Str, s = ws ++ (sign ++ ds) ∧ (∀ c ∈ ws, isSpace c = true) ∧ (sign = [] ∨ sign = ['+'] ∨ (sign = ['-'] ∧ n = 0)) ∧
    ds ≠ [] ∧ (∀ c ∈ ds, IsDec c = true) ∧ decValue ds = n ∧ n < 2 ^ 32

/-- The value of the variable in the text of an environment: the text after its first mention up to the end of the line, if that
mention stands at the beginning of a line. -/
def DesktopText (s x : Str) : Prop :=
  ∃ a b, s = a ++ (c!"DESKTOP_SESSION=" ++ (x ++ b)) ∧ (a = [] ∨ ∃ a', a = a' ++ ['\n']) ∧ '\n' ∉ x ∧ (b = [] ∨ ∃ b', b = '\n' :: b') ∧
    ∀ a' b', s = a' ++ (c!"DESKTOP_SESSION=" ++ b') → a.length ≤ a'.length

/-- The package that a directory of a packaged program belongs to. The number before the epoch is taken modulo 2^32. -/
def IsPackage (d : Dir) (p : Rpm.Package) : Prop :=
  ∃ e n v r a, d.contents c!"pkg_epoch" = some e ∧ d.contents c!"pkg_name" = some n ∧ d.contents c!"pkg_version" = some v ∧
    d.contents c!"pkg_release" = some r ∧ d.contents c!"pkg_arch" = some a ∧ (strtoull 10 e).value ≠ 2 ^ 64 - 1 ∧
    p = { epoch := (strtoull 10 e).value % 2 ^ 32, name := some (n.takeWhile (· ≠ '\n')), version := some (v.takeWhile (· ≠ '\n')),
          release := some (r.takeWhile (· ≠ '\n')), architecture := some (a.takeWhile (· ≠ '\n')), role := .affected }

/-- The packages of the program and its libraries, from the package of the program: nothing is added without a readable list of
libraries, or if it names no packages; otherwise all are sorted and merged. -/
def IsLibraries (qsort : (Rpm.Package → Rpm.Package → Int) → List Rpm.Package → List Rpm.Package) (d : Dir)
    (own ps : List Rpm.Package) : Prop :=
  match d.exist c!"dso_list", d.contents c!"dso_list" with
  | false, _ => ps = own
  | true, none => ps = own ∧ ps ≠ []
  | true, some t => ∃ l, Rpm.parseDsoList t = .ok l ∧ ((l = [] ∧ own ≠ [] ∧ ps = own) ∨
      (l ≠ [] ∧ ps ≠ [] ∧ ∃ s, Rpm.sort qsort (own ++ l) = .ok s ∧ ps = Rpm.uniq s))

/-- The package of the interpreter is the last one. -/
def IsInterpreter (d : Dir) (libs ps : List Rpm.Package) : Prop :=
  match d.exist c!"interpreter", d.contents c!"interpreter" with
  | false, _ => ps = libs
  | true, none => ps = libs
  | true, some t => (Rpm.parseNevra t = .fail ∧ ps = libs) ∨ ∃ n e v r a, Rpm.parseNevra t = .ok n e v r a ∧
      ps = libs ++ [{ name := some n, epoch := e, version := some v, release := some r, architecture := some a }]

/-- The packages of a directory. -/
def IsPackages (qsort : (Rpm.Package → Rpm.Package → Int) → List Rpm.Package → List Rpm.Package) (d : Dir)
    (ps : List Rpm.Package) : Prop :=
  ∃ own libs, (if d.exist c!"package" then ∃ p, IsPackage d p ∧ own = [p] else own = []) ∧ IsLibraries qsort d own libs ∧
    IsInterpreter d libs ps

/-- The component: what the directory says if the program is packaged, otherwise the last part of the path of the executable with
a suffix. -/
def componentName (d : Dir) : Option Str :=
  if d.exist c!"package" then d.contents c!"component"
  else if d.exist c!"executable" then
    (d.contents c!"executable").map fun e => (e.reverse.takeWhile (· ≠ '/')).reverse ++ c!"-unpackaged"
  else none

/-- The operating system: from `os_info` if it is complete, otherwise name and version from `os_release`. -/
def IsOs (d : Dir) (os : Os.OperatingSystem) : Prop :=
  ∃ arch base, d.contents c!"architecture" = some arch ∧
    ((∃ t, d.contents c!"os_info" = some t ∧ Os.parseEtcOsRelease t {} = (true, base)) ∨
     (∃ left t n v, (d.contents c!"os_info" = none ∧ left = {} ∨
          ∃ i, d.contents c!"os_info" = some i ∧ Os.parseEtcOsRelease i {} = (false, left)) ∧
        d.contents c!"os_release" = some t ∧ Os.parseSystemRelease t = some (n, v) ∧
        base = { left with name := some n, version := some v })) ∧
    os.architecture = some arch ∧ os.name = base.name ∧ os.version = base.version ∧ os.cpe = base.cpe ∧ os.variant = base.variant ∧
    os.uptime = base.uptime ∧ ∀ x, os.desktop = some x ↔ ∃ e, d.contents c!"environ" = some e ∧ DesktopText e x

/-- The stack trace. -/
def IsTrace (d : Dir) : ReportType → Option Stacktrace → Prop
  | .core, s => ∃ t v, d.contents c!"core_backtrace" = some t ∧ (Json.parse t).bind Json.Core.fromJson = some v ∧ s = some (.core v)
  | .python, s => ∃ t v rest, d.contents c!"backtrace" = some t ∧ Text.Python.parse t = .ok (some (v, rest)) ∧ s = some (.python v)
  | .kerneloops, s => ∃ k t v rest, d.contents c!"kernel" = some k ∧ d.contents c!"backtrace" = some t ∧
      Text.Koops.parseTrace t = .ok (v, rest) ∧ s = some (.koops { v with version := some k })
  | .java, s => ∃ t v rest, d.contents c!"backtrace" = some t ∧ Text.Java.parseThread t = .ok (some (v, rest)) ∧
      s = some (.java { threads := [v] })
  | .ruby, s => ∃ t v rest, d.contents c!"backtrace" = some t ∧ Text.Ruby.parse t = .ok (some (v, rest)) ∧ s = some (.ruby v)
  | _, s => s = none

/-- The report of a directory. -/
structure IsReport (qsort : (Rpm.Package → Rpm.Package → Int) → List Rpm.Package → List Rpm.Package) (name version : Str)
    (errno : Nat) (d : Dir) (r : UReport) : Prop where
  type : ∃ t, d.contents c!"type" = some t ∧ r.type = abrtType t
  reporter : r.reporterName = name ∧ r.reporterVersion = version
  os : ∃ os, r.os = some os ∧ IsOs d os
  component : r.component = componentName d
  packages : IsPackages qsort d r.packages
  serial : ∃ s, d.contents c!"count" = some s ∧ CountText s r.serial ∧ (r.serial = 0 → errno = 0)
  stacktrace : IsTrace d r.type r.stacktrace
  rest : r = { type := r.type, reporterName := r.reporterName, reporterVersion := r.reporterVersion, os := r.os, component := r.component,
               packages := r.packages, stacktrace := r.stacktrace, serial := r.serial }

/-! ## Lemmas about the functions that may assign the error message -/

variable {α β : Type}

theorem gives_bind {x : M α} {f : α → M β} {P : α → Prop} {Q : α → β → Prop} (hx : ∀ m a, Gives m x a ↔ P a)
    (hf : ∀ a m b, Gives m (f a) b ↔ Q a b) (m : Bool) (b : β) : Gives m (x >>= f) b ↔ ∃ a, P a ∧ Q a b := by
  show Gives m (M.andThen x f) b ↔ _
  constructor
  · rintro ⟨m', h⟩
    unfold M.andThen at h
    cases e : x m with
    | ok r =>
      obtain ⟨o, m1⟩ := r
      rw [e, Out.bind_ok] at h
      cases o with
      | none => cases h
      | some a => exact ⟨a, (hx m a).1 ⟨m1, e⟩, (hf a m1 b).1 ⟨m', h⟩⟩
    | abort => rw [e] at h; cases h
    | ub => rw [e] at h; cases h
  · rintro ⟨a, h1, h2⟩
    obtain ⟨m1, e⟩ := (hx m a).2 h1
    obtain ⟨m', h⟩ := (hf a m1 b).2 h2
    refine ⟨m', ?_⟩
    unfold M.andThen
    rw [e, Out.bind_ok]
    exact h

@[simp] theorem gives_ret (m : Bool) (a b : α) : Gives m (M.ret a) b ↔ b = a := by
  unfold Gives M.ret; simp [eq_comm]

@[simp] theorem gives_fail (m : Bool) (b : α) : Gives m (M.fail : M α) b ↔ False := by
  unfold Gives M.fail; simp

@[simp] theorem gives_error (m : Bool) (b : α) : Gives m (M.error : M α) b ↔ False := by
  unfold Gives M.error; simp

@[simp] theorem gives_lift (m : Bool) (x : Out α) (b : α) : Gives m (M.lift x) b ↔ x = .ok b := by
  unfold Gives M.lift
  cases x <;> simp [eq_comm]

@[simp] theorem gives_file (d : Dir) (n : Str) (m : Bool) (s : Str) : Gives m (file d n) s ↔ d.contents n = some s := by
  unfold file
  cases d.contents n <;> simp [eq_comm]

@[simp] theorem null_file (d : Dir) (n : Str) (m : Bool) : Null m (file d n) ↔ d.contents n = none := by
  unfold file
  cases d.contents n <;> simp [Null, M.ret, M.error]

theorem gives_attempt (x : M α) (m : Bool) (o : Option α) : Gives m x.attempt o ↔ match o with
    | some a => Gives m x a
    | none => Null m x := by
  unfold Gives M.attempt Null
  cases e : x m with
  | ok r =>
    obtain ⟨q, m1⟩ := r
    cases o with
    | none => simp
    | some a => simp
  | abort =>
    cases o with
    | none => simp
    | some a => simp
  | ub =>
    cases o with
    | none => simp
    | some a => simp

@[simp] theorem gives_attempt_file (d : Dir) (n : Str) (m : Bool) (o : Option Str) : Gives m (file d n).attempt o ↔ o = d.contents n := by
  rw [gives_attempt]
  cases o <;> simp [eq_comm]

/-! ## The number of occurrences -/

/-- The text after white space. -/
def blankless (s : Str) : Str := s.dropWhile isSpace

/-- The text after white space and a sign. -/
def signless (s : Str) : Str := if peek (blankless s) = '-' ∨ peek (blankless s) = '+' then (blankless s).tail else blankless s

/-- The number that the digits stand for. -/
def signedValue (s : Str) : Int :=
  if peek (blankless s) = '-' then - (decValue ((signless s).takeWhile IsDec) : Int) else decValue ((signless s).takeWhile IsDec)

theorem strtol_eq (s : Str) : strtol s =
    if (signless s).takeWhile IsDec = [] then ⟨0, false, s⟩
    else if signedValue s > 2 ^ 63 - 1 then ⟨2 ^ 63 - 1, true, (signless s).dropWhile IsDec⟩
    else if signedValue s < - 2 ^ 63 then ⟨- 2 ^ 63, true, (signless s).dropWhile IsDec⟩
    else ⟨signedValue s, false, (signless s).dropWhile IsDec⟩ := by
  unfold signedValue
  rw [← ofDigits_dec (ds := (signless s).takeWhile IsDec) (fun c hc => List.mem_takeWhile_imp hc)]
  rfl

theorem signless_len (s : Str) : (signless s).length ≤ s.length := by
  have h : (blankless s).length ≤ s.length := dropWhile_len s
  unfold signless
  split
  · rw [List.length_tail]; omega
  · exact h

theorem occurrencesOf_eq (errno : Nat) (s : Str) : occurrencesOf errno s =
    if (signless s).takeWhile IsDec ≠ [] ∧ (signless s).dropWhile IsDec = [] ∧ 0 ≤ signedValue s ∧ signedValue s < 2 ^ 32 ∧
      (signedValue s = 0 → errno = 0) then some (signedValue s).toNat else none := by
  generalize hR : (if (signless s).takeWhile IsDec ≠ [] ∧ (signless s).dropWhile IsDec = [] ∧ 0 ≤ signedValue s ∧
    signedValue s < 2 ^ 32 ∧ (signedValue s = 0 → errno = 0) then some (signedValue s).toNat else none) = R
  have none_of (h : ¬ ((signless s).takeWhile IsDec ≠ [] ∧ (signless s).dropWhile IsDec = [] ∧ 0 ≤ signedValue s ∧ signedValue s < 2 ^ 32 ∧
      (signedValue s = 0 → errno = 0))) : R = none := by rw [← hR, if_neg h]
  unfold occurrencesOf
  rw [strtol_eq]
  by_cases h1 : (signless s).takeWhile IsDec = []
  · rw [if_pos h1, none_of (fun h => h.1 h1)]
    simp
  rw [if_neg h1]
  by_cases h2 : signedValue s > 2 ^ 63 - 1
  · rw [if_pos h2, none_of (fun h => by omega)]
    rfl
  rw [if_neg h2]
  by_cases h3 : signedValue s < - 2 ^ 63
  · rw [if_pos h3, none_of (fun h => by omega)]
    rfl
  rw [if_neg h3]
  dsimp only
  have hs : (signless s).dropWhile IsDec ≠ s := by
    intro h
    have e := congrArg List.length (List.takeWhile_append_dropWhile (p := IsDec) (l := signless s))
    rw [List.length_append, h] at e
    have := signless_len s
    exact h1 (List.length_eq_zero_iff.1 (by omega))
  rw [if_neg (show ¬ (false = true) by decide), if_neg hs]
  by_cases h4 : (signless s).dropWhile IsDec = []
  swap
  · rw [if_pos h4, none_of (fun h => h4 h.2.1)]
    split <;> rfl
  rw [if_neg (not_not.2 h4)]
  by_cases h5 : signedValue s < 0 ∨ signedValue s > 2 ^ 32 - 1
  · rw [if_pos h5, none_of (fun h => by omega)]
    split <;> rfl
  rw [if_neg h5]
  by_cases h6 : signedValue s = 0 → errno = 0
  · rw [← hR, if_neg, if_pos ⟨h1, h4, by omega, by omega, h6⟩]
    rintro (⟨-, h | h⟩ | ⟨ha, hb⟩)
    · omega
    · omega
    · exact ha (h6 hb)
  · rw [if_pos (Or.inr ⟨fun h => h6 fun _ => h, by by_contra hc; exact h6 fun h => absurd h hc⟩), none_of (fun h => h6 h.2.2.2.2)]

theorem occurrencesOf_iff (errno : Nat) (s : Str) (n : Nat) :
    occurrencesOf errno s = some n ↔ CountText s n ∧ (n = 0 → errno = 0) := by
  rw [occurrencesOf_eq]
  constructor
  · intro h
    split at h
    · next hc =>
      obtain ⟨h1, h2, h3, h4, h5⟩ := hc
      cases h
      have hall : (signless s).takeWhile IsDec = signless s := by
        have := List.takeWhile_append_dropWhile (p := IsDec) (l := signless s)
        rwa [h2, List.append_nil] at this
      refine ⟨⟨s.takeWhile isSpace, (blankless s).take ((blankless s).length - (signless s).length), signless s, ?_,
        fun c hc => List.mem_takeWhile_imp hc, ?_, hall ▸ h1, fun c hc => List.mem_takeWhile_imp (hall.symm ▸ hc), ?_, by omega⟩, fun h => h5 (by omega)⟩
      · refine (List.takeWhile_append_dropWhile (p := isSpace) (l := s)).symm.trans (congrArg _ ?_)
        show blankless s = _
        unfold signless
        generalize blankless s = b
        split
        · cases b with
          | nil => rfl
          | cons x b => simp
        · simp
      · unfold signedValue at h3 ⊢
        unfold signless at h3 ⊢
        generalize blankless s = b at h3 ⊢
        by_cases hp : peek b = '-'
        · cases b with
          | nil => exact absurd hp (by decide)
          | cons x b =>
            have hx : x = '-' := hp
            subst hx
            right; right
            simp only [if_pos hp] at h3 ⊢
            refine ⟨by simp, by omega⟩
        · by_cases hq : peek b = '+'
          · cases b with
            | nil => exact absurd hq (by decide)
            | cons x b =>
              have hx : x = '+' := hq
              subst hx
              right; left
              simp
          · left
            simp [hp, hq]
      · unfold signedValue at h3 ⊢
        rw [hall] at h3 ⊢
        split at h3
        · next hp => rw [if_pos hp]; omega
        · next hp => rw [if_neg hp]; omega
    · cases h
  · rintro ⟨⟨ws, sign, ds, rfl, hws, hsign, hne, hds, hv, hn⟩, he⟩
    have hdig : ∀ c ∈ ds, isSpace c = false ∧ c ≠ '+' ∧ c ≠ '-' := fun c hc => by
      have := digits10_val c (List.contains_iff_mem.1 (hds c hc))
      tauto
    have hb : blankless (ws ++ (sign ++ ds)) = sign ++ ds := by
      unfold blankless
      rw [List.dropWhile_append_of_pos hws]
      cases ds with
      | nil => exact absurd rfl hne
      | cons d ds =>
        rcases hsign with rfl | rfl | ⟨rfl, -⟩
        · rw [List.nil_append, List.dropWhile_cons, if_neg (by simp [(hdig d (by simp)).1])]
        · rfl
        · rfl
    have hs : signless (ws ++ (sign ++ ds)) = ds := by
      unfold signless
      rw [hb]
      rcases hsign with rfl | rfl | ⟨rfl, -⟩
      · cases ds with
        | nil => exact absurd rfl hne
        | cons d ds =>
          have := hdig d (by simp)
          simp [this.2.1, this.2.2]
      · rfl
      · rfl
    have h1 : ds.takeWhile IsDec = ds := List.takeWhile_eq_self_iff.2 hds
    have h2 : signedValue (ws ++ (sign ++ ds)) = n := by
      unfold signedValue
      rw [hs, h1, hb, hv]
      rcases hsign with rfl | rfl | ⟨rfl, h0⟩
      · cases ds with
        | nil => exact absurd rfl hne
        | cons d ds =>
          have := hdig d (by simp)
          simp [this.2.2]
      · rfl
      · subst h0; rfl
    rw [hs, h2, h1, List.dropWhile_eq_nil_iff.2 hds, if_pos ⟨hne, rfl, by omega, by omega, fun h => he (by omega)⟩]
    rfl

/-- C81: the number of occurrences is read from the file `count` if and only if it contains nothing but a number that fits, with
white space and a sign allowed before it. Zero is read only if no system call has failed before. -/
theorem C81_count (d : Dir) (errno n : Nat) (m : Bool) : Gives m (occurrences d errno) n ↔
    ∃ s, d.contents c!"count" = some s ∧ CountText s n ∧ (n = 0 → errno = 0) := by
  unfold occurrences
  refine gives_bind (Q := fun s n => CountText s n ∧ (n = 0 → errno = 0)) (gives_file d _) (fun s m b => ?_) m n
  rw [← occurrencesOf_iff]
  cases occurrencesOf errno s <;> simp [eq_comm]

/-- C81: every number that fits is read from its decimal digits. -/
theorem C81_digits (d : Dir) (errno n : Nat) (m : Bool) (h : d.contents c!"count" = some (natDec n)) (hn : n < 2 ^ 32)
    (he : n ≠ 0 ∨ errno = 0) : Gives m (occurrences d errno) n := by
  obtain ⟨h1, h2, h3⟩ := natDec_spec n
  exact (C81_count ..).2 ⟨_, h, ⟨[], [], natDec n, rfl, by simp, Or.inl rfl, h2, h1, h3, hn⟩, fun h0 => he.resolve_left (not_not.2 h0)⟩

/-- C81 does not hold for zero if a file was looked for in vain before: `errno` is not reset. -/
theorem C81_not_zero : occurrencesOf 0 c!"0" = some 0 ∧ occurrencesOf 2 c!"0" = none := by decide +kernel

/-- C81 does not hold for a number with a line break after it. -/
theorem C81_not_newline : occurrencesOf 0 c!"1\n" = none ∧ occurrencesOf 0 c!"1" = some 1 := by decide +kernel

example : occurrencesOf 0 c!" +4294967295" = some 4294967295 ∧ occurrencesOf 0 c!"4294967296" = none ∧ occurrencesOf 0 c!"-0" = some 0 ∧
    occurrencesOf 0 c!"" = none := by decide +kernel

/-! ## The desktop session -/

theorem desktopOf_iff (s x : Str) : desktopOf s = some x ↔ DesktopText s x := by
  unfold desktopOf DesktopText
  generalize hp : c!"DESKTOP_SESSION=" = p
  constructor
  · intro h
    cases e : strstrI p s with
    | none => rw [e] at h; cases h
    | some i =>
      rw [e] at h
      obtain ⟨⟨a, b, rfl, rfl⟩, hmin⟩ := strstrI_some e
      dsimp only at h
      split at h
      · cases h
      · next hc =>
        have hd : (a ++ p ++ b).drop (a.length + p.length) = b := by rw [← List.length_append, List.drop_left]
        rw [hd] at h
        cases h
        refine ⟨a, b.dropWhile (· ≠ '\n'), by rw [List.takeWhile_append_dropWhile, List.append_assoc], ?_, ?_, ?_, ?_⟩
        · cases a using List.reverseRecOn with
          | nil => exact Or.inl rfl
          | append_singleton a c =>
            right
            simp at hc
            exact ⟨a, by rw [hc]⟩
        · intro hm
          have := List.mem_takeWhile_imp hm
          simp at this
        · by_cases hn : b.dropWhile (· ≠ '\n') = []
          · exact Or.inl hn
          · have h1 := List.head_dropWhile_not (fun x => decide (x ≠ '\n')) hn
            rw [decide_eq_false_iff_not, not_not] at h1
            exact Or.inr ⟨(b.dropWhile (· ≠ '\n')).tail, ((List.cons_head_tail hn).symm.trans (congrArg (· :: _) h1))⟩
        · intro a' b' h
          exact hmin a' b' (by rw [h, List.append_assoc])
  · rintro ⟨a, b, rfl, ha, hx, hb, hmin⟩
    have e : strstrI p (a ++ (p ++ (x ++ b))) = some a.length := by
      cases e : strstrI p (a ++ (p ++ (x ++ b))) with
      | none => exact absurd ⟨a, x ++ b, by rw [List.append_assoc]⟩ (strstrI_none e)
      | some i =>
        obtain ⟨⟨a', b', h1, h2⟩, h3⟩ := strstrI_some e
        have h4 := h3 a (x ++ b) (by rw [List.append_assoc])
        have h5 := hmin a' b' (by rw [h1, List.append_assoc])
        congr 1
        omega
    rw [e]
    dsimp only
    rw [if_neg]
    · congr 1
      rw [← List.append_assoc, ← List.length_append, List.drop_left]
      rcases hb with rfl | ⟨b', rfl⟩
      · rw [List.append_nil]; exact takeWhile_ne_all hx
      · exact takeWhile_ne_append hx b'
    · rintro ⟨h1, h2⟩
      rcases ha with rfl | ⟨a', rfl⟩
      · exact h1 rfl
      · apply h2
        simp

theorem desktop_run (d : Dir) (m : Bool) : ∃ m', desktop d m = .ok ((d.contents c!"environ").bind desktopOf, m') := by
  unfold desktop file
  cases e : d.contents c!"environ" with
  | none => exact ⟨true, rfl⟩
  | some s =>
    show ∃ m', M.andThen (M.ret s) _ m = _
    unfold M.andThen M.ret
    simp only [Out.bind_ok]
    rw [Option.bind_some]
    cases desktopOf s with
    | none => exact ⟨_, rfl⟩
    | some x => exact ⟨_, rfl⟩

theorem gives_desktop (d : Dir) (m : Bool) (o : Option Str) : Gives m (desktop d).attempt o ↔
    ∀ x, o = some x ↔ ∃ e, d.contents c!"environ" = some e ∧ DesktopText e x := by
  obtain ⟨m', h⟩ := desktop_run d m
  have h1 : Gives m (desktop d).attempt o ↔ o = (d.contents c!"environ").bind desktopOf := by
    rw [gives_attempt]
    cases o with
    | none => simp [Null, h, eq_comm]
    | some a => simp [Gives, h, eq_comm]
  rw [h1]
  have h2 : ∀ x, (d.contents c!"environ").bind desktopOf = some x ↔ ∃ e, d.contents c!"environ" = some e ∧ DesktopText e x := by
    intro x
    rw [Option.bind_eq_some_iff]
    simp only [desktopOf_iff]
  constructor
  · rintro rfl; exact h2
  · intro h
    apply Option.ext
    intro x
    rw [h, h2]

/-! ## The component -/

theorem baseName_eq (s : Str) : Short.baseName s = (s.reverse.takeWhile (· ≠ '/')).reverse := by
  unfold Short.baseName
  by_cases h : '/' ∈ s
  · obtain ⟨a, b, rfl, hb⟩ := last_split h
    rw [strrchrI_append hb]
    have hb' : '/' ∉ b.reverse := by simpa using hb
    rw [List.reverse_append, List.reverse_cons, List.append_assoc, List.singleton_append, takeWhile_ne_append hb', List.reverse_reverse]
    simp
  · have h' : '/' ∉ s.reverse := by simpa using h
    rw [strrchrI_none.2 h, takeWhile_ne_all h', List.reverse_reverse]

theorem component_run (d : Dir) (m : Bool) : ∃ m', component d m = .ok (componentName d, m') := by
  unfold component componentName isPackaged
  split
  · unfold file
    cases d.contents c!"component" <;> exact ⟨_, rfl⟩
  · split
    · unfold file
      cases d.contents c!"executable" with
      | none => exact ⟨_, rfl⟩
      | some e => rw [Option.map_some, ← baseName_eq]; exact ⟨_, rfl⟩
    · exact ⟨_, rfl⟩

theorem gives_component (d : Dir) (m : Bool) (o : Option Str) : Gives m (component d).attempt o ↔ o = componentName d := by
  obtain ⟨m', h⟩ := component_run d m
  rw [gives_attempt]
  cases o with
  | none => simp [Null, h, eq_comm]
  | some a => simp [Gives, h, eq_comm]

/-! ## The operating system -/

/-- What `IsOs` says of name and version. -/
def IsVersion (d : Dir) (base : Os.OperatingSystem) : Prop :=
  (∃ t, d.contents c!"os_info" = some t ∧ Os.parseEtcOsRelease t {} = (true, base)) ∨
  (∃ left t n v, (d.contents c!"os_info" = none ∧ left = {} ∨
      ∃ i, d.contents c!"os_info" = some i ∧ Os.parseEtcOsRelease i {} = (false, left)) ∧
    d.contents c!"os_release" = some t ∧ Os.parseSystemRelease t = some (n, v) ∧
    base = { left with name := some n, version := some v })

theorem gives_osVersion (d : Dir) (m : Bool) (os : Os.OperatingSystem) : Gives m (osVersion d) os ↔ IsVersion d os := by
  unfold osVersion IsVersion
  have h1 : ∀ (i : Option Str) (m : Bool) (os : Os.OperatingSystem), Gives m (if (osInfo i).1 = true then M.ret (osInfo i).2 else do
      let t ← (file d c!"os_release").attempt
      match osRelease (osInfo i).2 t with
      | some os => M.ret os
      | none => M.error) os ↔ ((osInfo i).1 = true ∧ os = (osInfo i).2) ∨
        ((osInfo i).1 = false ∧ osRelease (osInfo i).2 (d.contents c!"os_release") = some os) := by
    intro i m os
    split
    · next h => simp [h]
    · next h =>
      rw [gives_bind (gives_attempt_file d _) (Q := fun t os => osRelease (osInfo i).2 t = some os)]
      · simp [h]
      · intro t m b
        cases osRelease (osInfo i).2 t <;> simp [eq_comm]
  refine (gives_bind (gives_attempt_file d _) h1 m os).trans ?_
  simp only [exists_eq_left]
  constructor
  · rintro (⟨h2, h3⟩ | ⟨h2, h3⟩)
    · left
      cases e : d.contents c!"os_info" with
      | none => rw [e] at h2; cases h2
      | some t =>
        rw [e] at h2 h3
        exact ⟨t, rfl, by rw [h3]; exact Prod.ext h2 rfl⟩
    · right
      cases e' : d.contents c!"os_release" with
      | none => rw [e'] at h3; cases h3
      | some t =>
        rw [e', osRelease, Option.map_eq_some_iff] at h3
        obtain ⟨⟨n, v⟩, h4, h5⟩ := h3
        refine ⟨(osInfo (d.contents c!"os_info")).2, t, n, v, ?_, rfl, h4, h5.symm⟩
        cases e : d.contents c!"os_info" with
        | none => exact Or.inl ⟨rfl, rfl⟩
        | some i =>
          rw [e] at h2
          exact Or.inr ⟨i, rfl, Prod.ext h2 rfl⟩
  · rintro (⟨t, h2, h3⟩ | ⟨left, t, n, v, h2, h3, h4, rfl⟩)
    · left
      rw [h2]
      simp [osInfo, h3]
    · right
      rw [h3, osRelease, h4]
      rcases h2 with ⟨h2, rfl⟩ | ⟨i, h2, h5⟩
      · rw [h2]
        exact ⟨rfl, rfl⟩
      · rw [h2]
        simp [osInfo, h5]

/-- C82: the operating system of a directory. -/
theorem C82_os (d : Dir) (m : Bool) (os : Os.OperatingSystem) : Gives m (operatingSystem d) os ↔ IsOs d os := by
  unfold operatingSystem
  rw [gives_bind (gives_osVersion d) fun os m b => gives_bind (gives_file d _) (fun a m b => gives_bind (gives_desktop d) (fun o m b =>
    gives_ret m _ b) m b) m b]
  constructor
  · rintro ⟨base, h1, arch, h2, desk, h3, rfl⟩
    exact ⟨arch, base, h2, h1, rfl, rfl, rfl, rfl, rfl, rfl, h3⟩
  · rintro ⟨arch, base, h1, h2, h3, h4, h5, h6, h7, h8, h9⟩
    refine ⟨base, h2, arch, h1, os.desktop, h9, ?_⟩
    cases os
    simp_all

/-! ## Packages -/

theorem gives_package (d : Dir) (m : Bool) (p : Rpm.Package) : Gives m (package d) p ↔ IsPackage d p := by
  unfold package IsPackage
  have h1 : ∀ (e : Str) (m : Bool) (p : Rpm.Package), Gives m (if (strtoull 10 e).value = 2 ^ 64 - 1 then M.error else do
      let name ← (file d c!"pkg_name").attempt
      let version ← (file d c!"pkg_version").attempt
      let release ← (file d c!"pkg_release").attempt
      let arch ← (file d c!"pkg_arch").attempt
      match name, version, release, arch with
      | some n, some v, some r, some a =>
        M.ret { epoch := (strtoull 10 e).value % 2 ^ 32, name := some (stripNewline n), version := some (stripNewline v),
                release := some (stripNewline r), architecture := some (stripNewline a), role := .affected }
      | _, _, _, _ => M.fail) p ↔ (strtoull 10 e).value ≠ 2 ^ 64 - 1 ∧ ∃ n v r a, d.contents c!"pkg_name" = some n ∧
        d.contents c!"pkg_version" = some v ∧ d.contents c!"pkg_release" = some r ∧ d.contents c!"pkg_arch" = some a ∧
        p = { epoch := (strtoull 10 e).value % 2 ^ 32, name := some (stripNewline n), version := some (stripNewline v),
              release := some (stripNewline r), architecture := some (stripNewline a), role := .affected } := by
    intro e m p
    split
    · next h => simp [h]
    · next h =>
      refine (gives_bind (gives_attempt_file d _) (fun n m b => gives_bind (gives_attempt_file d _) (fun v m b =>
        gives_bind (gives_attempt_file d _) (fun r m b => gives_bind (gives_attempt_file d _)
          (Q := fun a p => ∃ n' v' r' a', n = some n' ∧ v = some v' ∧ r = some r' ∧ a = some a' ∧
            p = { epoch := (strtoull 10 e).value % 2 ^ 32, name := some (stripNewline n'), version := some (stripNewline v'),
                  release := some (stripNewline r'), architecture := some (stripNewline a'), role := .affected })
          (fun a m b => ?_) m b) m b) m b) m p).trans ?_
      · cases n <;> cases v <;> cases r <;> cases a <;> simp
      · simp only [exists_eq_left]
        exact ⟨fun h' => ⟨h, h'⟩, fun h' => h'.2⟩
  refine (gives_bind (gives_file d _) h1 m p).trans ?_
  constructor
  · rintro ⟨e, he, h2, n, v, r, a, h3, h4, h5, h6, rfl⟩
    exact ⟨e, n, v, r, a, he, h3, h4, h5, h6, h2, rfl⟩
  · rintro ⟨e, n, v, r, a, he, h3, h4, h5, h6, h2, rfl⟩
    exact ⟨e, he, h2, n, v, r, a, h3, h4, h5, h6, rfl⟩

variable (qsort : (Rpm.Package → Rpm.Package → Int) → List Rpm.Package → List Rpm.Package)

theorem gives_own (d : Dir) (m : Bool) (own : List Rpm.Package) : Gives m (ownPackage d) own ↔
    if d.exist c!"package" then ∃ p, IsPackage d p ∧ own = [p] else own = [] := by
  unfold ownPackage isPackaged
  split
  · exact gives_bind (gives_package d) (fun p m b => gives_ret m [p] b) m own
  · exact gives_ret m [] own

theorem gives_dsos (d : Dir) (own : List Rpm.Package) (m : Bool) (ps : List Rpm.Package) : Gives m (dsoPackages qsort d own) ps ↔
    match d.contents c!"dso_list" with
    | none => ps = own
    | some t => ∃ l, Rpm.parseDsoList t = .ok l ∧ addDsos qsort own l = .ok ps := by
  unfold dsoPackages
  have h : ∀ (t : Option Str) (m : Bool) (ps : List Rpm.Package), Gives m (match t with
      | none => M.ret own
      | some t => do
        let dsos ← M.lift (Rpm.parseDsoList t)
        M.lift (addDsos qsort own dsos)) ps ↔ match t with
        | none => ps = own
        | some t => ∃ l, Rpm.parseDsoList t = .ok l ∧ addDsos qsort own l = .ok ps := by
    intro t m ps
    cases t with
    | none => exact gives_ret m own ps
    | some t => exact gives_bind (gives_lift · _) (fun l m b => gives_lift m _ b) m ps
  refine (gives_bind (gives_attempt_file d _) h m ps).trans ?_
  rw [exists_eq_left]

theorem addDsos_iff (own l ps : List Rpm.Package) : addDsos qsort own l = .ok ps ↔
    (l = [] ∧ ps = own) ∨ (l ≠ [] ∧ ∃ s, Rpm.sort qsort (own ++ l) = .ok s ∧ ps = Rpm.uniq s) := by
  unfold addDsos
  split
  · next h => simp [h, eq_comm]
  · next h =>
    cases e : Rpm.sort qsort (own ++ l) <;> simp [h, eq_comm]

theorem gives_libraries (d : Dir) (own : List Rpm.Package) (m : Bool) (ps : List Rpm.Package) :
    Gives m (libraryPackages qsort d own) ps ↔ IsLibraries qsort d own ps := by
  unfold libraryPackages IsLibraries
  cases d.exist c!"dso_list" with
  | false => exact gives_ret m own ps
  | true =>
    rw [if_pos rfl]
    refine (gives_bind (gives_dsos qsort d own) (Q := fun l ps => l ≠ [] ∧ ps = l) (fun l m b => ?_) m ps).trans ?_
    · split
      · next h => simp [h]
      · next h => simp [h]
    · cases d.contents c!"dso_list" with
      | none =>
        simp only [exists_eq_left]
        constructor
        · rintro ⟨h, rfl⟩; exact ⟨rfl, h⟩
        · rintro ⟨rfl, h⟩; exact ⟨h, rfl⟩
      | some t =>
        simp only [addDsos_iff]
        constructor
        · rintro ⟨q, ⟨l, h1, h2⟩, h3, rfl⟩
          refine ⟨l, h1, ?_⟩
          rcases h2 with ⟨rfl, rfl⟩ | ⟨h2, h4⟩
          · exact Or.inl ⟨rfl, h3, rfl⟩
          · exact Or.inr ⟨h2, h3, h4⟩
        · rintro ⟨l, h1, ⟨rfl, h2, rfl⟩ | ⟨h2, h3, h4⟩⟩
          · exact ⟨ps, ⟨[], h1, Or.inl ⟨rfl, rfl⟩⟩, h2, rfl⟩
          · exact ⟨ps, ⟨l, h1, Or.inr ⟨h2, h4⟩⟩, h3, rfl⟩

theorem gives_interpreter (d : Dir) (libs : List Rpm.Package) (m : Bool) (ps : List Rpm.Package) :
    Gives m (if d.exist c!"interpreter" then interpreterPackage d libs else M.ret libs) ps ↔ IsInterpreter d libs ps := by
  unfold IsInterpreter
  cases d.exist c!"interpreter" with
  | false => exact gives_ret m libs ps
  | true =>
    rw [if_pos rfl]
    unfold interpreterPackage
    refine (gives_bind (gives_attempt_file d _) (Q := fun t ps => match t with
      | none => ps = libs
      | some t => interpreter libs t = .ok ps) (fun t m b => ?_) m ps).trans ?_
    · cases t with
      | none => exact gives_ret m libs b
      | some t => exact gives_lift m _ b
    · rw [exists_eq_left]
      cases d.contents c!"interpreter" with
      | none => rfl
      | some t =>
        dsimp only
        unfold interpreter
        cases Rpm.parseNevra t with
        | fail => simp [eq_comm]
        | failDangling => simp
        | ok n e v r a =>
          constructor
          · intro h; cases h; exact Or.inr ⟨n, e, v, r, a, rfl, rfl⟩
          · rintro (⟨h, -⟩ | ⟨n', e', v', r', a', h, rfl⟩)
            · cases h
            · cases h; rfl

/-- C83: the packages of a directory are the package of the program, if it is packaged, those of the list of libraries, sorted and
merged, and the package of the interpreter. -/
theorem C83_packages (d : Dir) (m : Bool) (ps : List Rpm.Package) : Gives m (packages qsort d) ps ↔ IsPackages qsort d ps := by
  unfold packages
  refine (gives_bind (gives_own d) (fun own m b => gives_bind (gives_libraries qsort d own)
    (fun libs m b => gives_interpreter d libs m b) m b) m ps).trans ?_
  constructor
  · rintro ⟨own, h1, libs, h2, h3⟩; exact ⟨own, libs, h1, h2, h3⟩
  · rintro ⟨own, libs, h1, h2, h3⟩; exact ⟨own, h1, libs, h2, h3⟩

/-! ## The report -/

theorem gives_parsed (r : Out (Option (α × Str))) (f : α → Stacktrace) (m : Bool) (s : Stacktrace) : Gives m (parsed r f) s ↔
    ∃ v rest, r = .ok (some (v, rest)) ∧ s = f v := by
  unfold parsed
  refine (gives_bind (gives_lift · r) (Q := fun x s => ∃ v rest, x = some (v, rest) ∧ s = f v) (fun x m b => ?_) m s).trans ?_
  · cases x with
    | none => simp
    | some y => obtain ⟨v, rest⟩ := y; simp
  · constructor
    · rintro ⟨x, h, v, rest, rfl, rfl⟩; exact ⟨v, rest, h, rfl⟩
    · rintro ⟨v, rest, h, rfl⟩; exact ⟨_, h, v, rest, rfl, rfl⟩

theorem gives_stacktrace (d : Dir) (type : ReportType) (m : Bool) (s : Option Stacktrace) :
    Gives m (stacktrace d type) s ↔ IsTrace d type s := by
  have text {α : Type} (r : Str → Out (Option (α × Str))) (f : α → Stacktrace) : Gives m (do
      let t ← file d c!"backtrace"
      let s ← parsed (r t) f
      M.ret (some s)) s ↔ ∃ t v rest, d.contents c!"backtrace" = some t ∧ r t = .ok (some (v, rest)) ∧ s = some (f v) := by
    refine (gives_bind (gives_file d _) (fun t m b => gives_bind (gives_parsed (r t) f) (fun s m b => gives_ret m _ b) m b) m s).trans ?_
    constructor
    · rintro ⟨t, h1, x, ⟨v, rest, h2, rfl⟩, rfl⟩; exact ⟨t, v, rest, h1, h2, rfl⟩
    · rintro ⟨t, v, rest, h1, h2, rfl⟩; exact ⟨t, h1, _, ⟨v, rest, h2, rfl⟩, rfl⟩
  cases type with
  | core =>
    refine (gives_bind (gives_file d _) (Q := fun t s => ∃ v, coreFromText t = some v ∧ s = some (.core v)) (fun t m b => ?_) m s).trans ?_
    · cases coreFromText t <;> simp
    · constructor
      · rintro ⟨t, h1, v, h2, rfl⟩; exact ⟨t, v, h1, h2, rfl⟩
      · rintro ⟨t, v, h1, h2, rfl⟩; exact ⟨t, h1, v, h2, rfl⟩
  | python => exact text Text.Python.parse .python
  | java => exact text Text.Java.parseThread fun th => .java { threads := [th] }
  | ruby => exact text Text.Ruby.parse .ruby
  | kerneloops =>
    refine (gives_bind (gives_file d _) (fun k m b => gives_bind (gives_file d _) (fun t m b =>
      gives_bind (gives_lift · _) (fun v m b => gives_ret m _ b) m b) m b) m s).trans ?_
    constructor
    · rintro ⟨k, h1, t, h2, v, h3, rfl⟩; exact ⟨k, t, v.1, v.2, h1, h2, h3, rfl⟩
    · rintro ⟨k, t, v, rest, h1, h2, h3, rfl⟩; exact ⟨k, h1, t, h2, (v, rest), h3, rfl⟩
  | _ => exact gives_ret m none s

/-- C80: a report is read from a directory if and only if the directory describes it. -/
theorem C80_report (name version : Str) (errno : Nat) (d : Dir) (m : Bool) (r : UReport) :
    Gives m (report qsort name version errno d) r ↔ IsReport qsort name version errno d r := by
  unfold report
  refine (gives_bind (gives_file d _) (fun t m b => gives_bind (C82_os d) (fun os m b => gives_bind (gives_component d) (fun c m b =>
    gives_bind (C83_packages qsort d) (fun ps m b => gives_bind (fun m n => C81_count d errno n m) (fun n m b =>
    gives_bind (gives_stacktrace d (abrtType t)) (fun st m b => gives_ret m _ b) m b) m b) m b) m b) m b) m r).trans ?_
  constructor
  · rintro ⟨t, h1, os, h2, c, h3, ps, h4, n, h5, st, h6, rfl⟩
    exact ⟨⟨t, h1, rfl⟩, ⟨rfl, rfl⟩, ⟨os, rfl, h2⟩, h3, h4, h5, h6, rfl⟩
  · rintro ⟨⟨t, h1, h1'⟩, ⟨rfl, rfl⟩, ⟨os, h2, h2'⟩, h3, h4, h5, h6, h7⟩
    refine ⟨t, h1, os, h2', r.component, h3, r.packages, h4, r.serial, h5, r.stacktrace, h1' ▸ h6, ?_⟩
    rw [← h1', ← h2]
    exact h7

end Satyr.Abrt
