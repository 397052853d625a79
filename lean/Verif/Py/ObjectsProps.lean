import Verif.Py.ObjectsModel
import Verif.Rpm.Names
/-!
# C129: packages, operating systems and shared libraries in Python
-/
namespace Satyr.Py.Objects
open Satyr.CStr Satyr.Frames Satyr.Rpm
open Satyr.Py.Base (Exc)

/-! ## Specification -/

/-- An argument for a text: not given, or a text without NUL, which the attribute has then. -/
def GivenText (arg : Option Value) (s : Option Str) : Prop :=
  (arg = none ∧ s = none) ∨ ∃ x, arg = some (.str x) ∧ '\x00' ∉ x ∧ s = some x

/-- An argument for a number: its remainder modulo 2^32. -/
def GivenNumber (arg : Option Value) (default n : Nat) : Prop :=
  (arg = none ∧ n = default) ∨ (∃ z : Int, arg = some (.int z) ∧ (n : Int) = z % 4294967296) ∨ ∃ b, arg = some (.bool b) ∧ n = b.toNat

/-- The values that an attribute accepts: a number or a truth value. -/
def Denotes (v : Value) (z : Int) : Prop := v = .int z ∨ ∃ b : Bool, v = .bool b ∧ z = if b then 1 else 0

/-- A package whose parts are all known and have none of the characters that separate them. -/
structure Readable (p : Package) (n v r a : Str) : Prop where
  name : p.name = some n
  version : p.version = some v
  release : p.release = some r
  architecture : p.architecture = some a
  nameNe : n ≠ []
  versionNe : v ≠ []
  releaseNe : r ≠ []
  versionPlain : '-' ∉ v ∧ ':' ∉ v
  releasePlain : '-' ∉ r
  architecturePlain : '-' ∉ a ∧ '.' ∉ a

/-! ## Proofs -/

theorem textArg_ok {v : Value} {s : Str} : textArg v = .ok s ↔ v = .str s ∧ '\x00' ∉ s := by
  cases v with
  | str x =>
    by_cases h : '\x00' ∈ x
    · simp only [textArg, if_pos h, reduceCtorEq, Value.str.injEq, false_iff, not_and, not_not]
      rintro rfl; exact h
    · simp only [textArg, if_neg h, Except.ok.injEq, Value.str.injEq]
      exact ⟨fun e => ⟨e, e ▸ h⟩, fun e => e.1⟩
  | none => simp [textArg]
  | bool => simp [textArg]
  | int => simp [textArg]
  | badStr => simp [textArg]
  | other => simp [textArg]

theorem numberArg_ok {v : Value} {n : Nat} (d : Nat) : numberArg v = .ok n ↔ GivenNumber (some v) d n := by
  cases v with
  | int z =>
    simp only [numberArg, Value.asInt, Except.ok.injEq, GivenNumber, unsignedArg]
    constructor
    · rintro rfl
      exact Or.inr (Or.inl ⟨z, rfl, by omega⟩)
    · rintro (⟨h, -⟩ | ⟨z', h, hn⟩ | ⟨b, h, -⟩)
      · cases h
      · cases h; omega
      · cases h
  | bool b =>
    cases b <;>
    · simp [numberArg, Value.asInt, GivenNumber, unsignedArg]
      try exact eq_comm
  | none => simp [numberArg, Value.asInt, GivenNumber]
  | str => simp [numberArg, Value.asInt, GivenNumber]
  | badStr => simp [numberArg, Value.asInt, GivenNumber]
  | other => simp [numberArg, Value.asInt, GivenNumber]

/-- The conversion of all arguments: each one is converted. -/
theorem parseArgs_ok {fs : List Bool} {vs : List Value} {l : List Stored} :
    parseArgs fs vs = .ok l ↔ l.length = vs.length ∧ vs.length ≤ fs.length ∧
      ∀ (i : Nat) (f : Bool) (v : Value) (s : Stored), fs[i]? = some f → vs[i]? = some v → l[i]? = some s →
        (f = false → ∃ x, textArg v = .ok x ∧ s = .text x) ∧ (f = true → ∃ n, numberArg v = .ok n ∧ s = .number n) := by
  induction fs generalizing vs l with
  | nil =>
    cases vs with
    | nil => cases l <;> simp [parseArgs]
    | cons => simp [parseArgs]
  | cons f fs ih =>
    cases vs with
    | nil => cases l <;> cases f <;> simp [parseArgs]
    | cons v vs =>
      cases f with
      | false =>
        cases hv : textArg v with
        | error e =>
          simp only [parseArgs, hv, reduceCtorEq, false_iff, not_and]
          intro h1 h2 h3
          cases l with
          | nil => simp at h1
          | cons s l =>
            obtain ⟨x, hx, -⟩ := (h3 0 false v s rfl rfl rfl).1 rfl
            rw [hv] at hx; cases hx
        | ok x =>
          cases hr : parseArgs fs vs with
          | error e =>
            simp only [parseArgs, hv, hr, reduceCtorEq, false_iff, not_and]
            intro h1 h2 h3
            cases l with
            | nil => simp at h1
            | cons s l =>
              have := (ih (vs := vs) (l := l)).2 ⟨by simpa using h1, by simpa using h2, fun i f v s a b c => h3 (i + 1) f v s a b c⟩
              rw [hr] at this; cases this
          | ok r =>
            simp only [parseArgs, hv, hr, Except.ok.injEq]
            obtain ⟨i1, i2, i3⟩ := ih.1 hr
            constructor
            · rintro rfl
              refine ⟨by simp [i1], by simpa using i2, ?_⟩
              intro i f v' s a b c
              cases i with
              | zero => cases a; cases b; cases c; exact ⟨fun _ => ⟨x, hv, rfl⟩, (fun h => by cases h)⟩
              | succ i => exact i3 i f v' s a b c
            · rintro ⟨h1, h2, h3⟩
              cases l with
              | nil => simp at h1
              | cons s l =>
                obtain ⟨y, hy, rfl⟩ := (h3 0 false v s rfl rfl rfl).1 rfl
                have := (ih (vs := vs) (l := l)).2 ⟨by simpa using h1, by simpa using h2, fun i f v s a b c => h3 (i + 1) f v s a b c⟩
                rw [hr] at this; cases this
                rw [hv] at hy; cases hy
                rfl
      | true =>
        cases hv : numberArg v with
        | error e =>
          simp only [parseArgs, hv, reduceCtorEq, false_iff, not_and]
          intro h1 h2 h3
          cases l with
          | nil => simp at h1
          | cons s l =>
            obtain ⟨x, hx, -⟩ := (h3 0 true v s rfl rfl rfl).2 rfl
            rw [hv] at hx; cases hx
        | ok x =>
          cases hr : parseArgs fs vs with
          | error e =>
            simp only [parseArgs, hv, hr, reduceCtorEq, false_iff, not_and]
            intro h1 h2 h3
            cases l with
            | nil => simp at h1
            | cons s l =>
              have := (ih (vs := vs) (l := l)).2 ⟨by simpa using h1, by simpa using h2, fun i f v s a b c => h3 (i + 1) f v s a b c⟩
              rw [hr] at this; cases this
          | ok r =>
            simp only [parseArgs, hv, hr, Except.ok.injEq]
            obtain ⟨i1, i2, i3⟩ := ih.1 hr
            constructor
            · rintro rfl
              refine ⟨by simp [i1], by simpa using i2, ?_⟩
              intro i f v' s a b c
              cases i with
              | zero => cases a; cases b; cases c; exact ⟨(fun h => by cases h), fun _ => ⟨x, hv, rfl⟩⟩
              | succ i => exact i3 i f v' s a b c
            · rintro ⟨h1, h2, h3⟩
              cases l with
              | nil => simp at h1
              | cons s l =>
                obtain ⟨y, hy, rfl⟩ := (h3 0 true v s rfl rfl rfl).2 rfl
                have := (ih (vs := vs) (l := l)).2 ⟨by simpa using h1, by simpa using h2, fun i f v s a b c => h3 (i + 1) f v s a b c⟩
                rw [hr] at this; cases this
                rw [hv] at hy; cases hy
                rfl

/-- The arguments of a successful conversion: nothing is stored for those that are not given. -/
theorem parseArgs_text {fs : List Bool} {vs : List Value} {l : List Stored} (h : parseArgs fs vs = .ok l) {i : Nat}
    (hf : fs[i]? = some false) : GivenText vs[i]? (textAt l i) := by
  obtain ⟨h1, -, h3⟩ := parseArgs_ok.1 h
  cases hv : vs[i]? with
  | none =>
    have hl : l[i]? = none := by rw [List.getElem?_eq_none_iff] at hv ⊢; omega
    exact Or.inl ⟨rfl, by simp [textAt, hl]⟩
  | some v =>
    have hi : i < l.length := by have := (List.getElem?_eq_some_iff.1 hv).1; omega
    obtain ⟨x, hx, hs⟩ := (h3 i false v l[i] hf hv (List.getElem?_eq_getElem hi)).1 rfl
    obtain ⟨rfl, hn⟩ := textArg_ok.1 hx
    exact Or.inr ⟨x, rfl, hn, by simp [textAt, List.getElem?_eq_getElem hi, hs]⟩

theorem parseArgs_number {fs : List Bool} {vs : List Value} {l : List Stored} (h : parseArgs fs vs = .ok l) {i : Nat} (d : Nat)
    (hf : fs[i]? = some true) : GivenNumber vs[i]? d (numberAt l i d) := by
  obtain ⟨h1, -, h3⟩ := parseArgs_ok.1 h
  cases hv : vs[i]? with
  | none =>
    have hl : l[i]? = none := by rw [List.getElem?_eq_none_iff] at hv ⊢; omega
    exact Or.inl ⟨rfl, by simp [numberAt, hl]⟩
  | some v =>
    have hi : i < l.length := by have := (List.getElem?_eq_some_iff.1 hv).1; omega
    obtain ⟨n, hn, hs⟩ := (h3 i true v l[i] hf hv (List.getElem?_eq_getElem hi)).2 rfl
    have : numberAt l i d = n := by simp [numberAt, List.getElem?_eq_getElem hi, hs]
    rw [this]
    exact (numberArg_ok d).1 hn

/-- The conversion succeeds if each argument fits its letter. -/
theorem parseArgs_total {fs : List Bool} {vs : List Value} (hl : vs.length ≤ fs.length)
    (h : ∀ (i : Nat) (v : Value), vs[i]? = some v → (fs[i]? = some false → ∃ x, textArg v = .ok x) ∧
      (fs[i]? = some true → ∃ n, numberArg v = .ok n)) : ∃ l, parseArgs fs vs = .ok l := by
  induction fs generalizing vs with
  | nil =>
    cases vs with
    | nil => exact ⟨[], rfl⟩
    | cons => simp at hl
  | cons f fs ih =>
    cases vs with
    | nil => cases f <;> exact ⟨[], rfl⟩
    | cons v vs =>
      obtain ⟨r, hr⟩ := ih (vs := vs) (by simpa using hl) (fun i w hw => h (i + 1) w hw)
      cases f with
      | false =>
        obtain ⟨x, hx⟩ := (h 0 v rfl).1 rfl
        exact ⟨.text x :: r, by simp only [parseArgs, hx, hr]⟩
      | true =>
        obtain ⟨n, hn⟩ := (h 0 v rfl).2 rfl
        exact ⟨.number n :: r, by simp only [parseArgs, hn, hr]⟩

theorem givenText_unique {arg : Option Value} {s t : Option Str} (hs : GivenText arg s) (ht : GivenText arg t) : s = t := by
  rcases hs with ⟨rfl, rfl⟩ | ⟨x, rfl, -, rfl⟩
  · rcases ht with ⟨-, rfl⟩ | ⟨y, hy, -⟩
    · rfl
    · cases hy
  · rcases ht with ⟨hy, -⟩ | ⟨y, hy, -, rfl⟩
    · cases hy
    · cases hy; rfl

theorem givenNumber_unique {arg : Option Value} {d n m : Nat} (hs : GivenNumber arg d n) (ht : GivenNumber arg d m) : n = m := by
  rcases hs with ⟨rfl, rfl⟩ | ⟨z, rfl, hz⟩ | ⟨b, rfl, rfl⟩
  · rcases ht with ⟨-, rfl⟩ | ⟨y, hy, -⟩ | ⟨y, hy, -⟩
    · rfl
    · cases hy
    · cases hy
  · rcases ht with ⟨hy, -⟩ | ⟨y, hy, h⟩ | ⟨y, hy, -⟩
    · cases hy
    · cases hy; omega
    · cases hy
  · rcases ht with ⟨hy, -⟩ | ⟨y, hy, h⟩ | ⟨y, hy, h⟩
    · cases hy
    · cases hy
    · cases hy; exact h.symm

theorem textArg_of_given {arg : Option Value} {s : Option Str} (h : GivenText arg s) {v : Value} (hv : arg = some v) :
    ∃ x, textArg v = .ok x := by
  rcases h with ⟨rfl, -⟩ | ⟨x, rfl, hn, -⟩
  · cases hv
  · cases hv; exact ⟨x, textArg_ok.2 ⟨rfl, hn⟩⟩

/-- C129: `RpmPackage(name, epoch, version, release, architecture)` succeeds if and only if there are at most five arguments, each
of them is a text without NUL (the epoch: an integer), and then the package has just these, nothing where no argument is given, and
the epoch modulo 2^32. `junk` is what the epoch is if it is not given. -/
theorem C129_package_partial (junk : Nat) (args : List Value) (p : Package) : packageNew junk args = .ok p ↔
    args.length ≤ 5 ∧ GivenText args[0]? p.name ∧ GivenNumber args[1]? junk p.epoch ∧ GivenText args[2]? p.version ∧
      GivenText args[3]? p.release ∧ GivenText args[4]? p.architecture ∧ p.installTime = 0 ∧ p.role = .unknown ∧ p.consistency = [] := by
  unfold packageNew
  constructor
  · intro h
    split at h
    · cases h
    · next hl =>
      split at h
      · cases h
      · next l hp =>
        cases h
        exact ⟨by omega, parseArgs_text hp rfl, parseArgs_number hp junk rfl, parseArgs_text hp rfl, parseArgs_text hp rfl,
          parseArgs_text hp rfl, rfl, rfl, rfl⟩
  · rintro ⟨hl, g0, g1, g2, g3, g4, e1, e2, e3⟩
    rw [if_neg (by omega)]
    obtain ⟨l, hp⟩ := parseArgs_total (fs := [false, true, false, false, false]) (vs := args) (by simpa using hl) (by
      intro i v hv
      have hi : i < 5 := by have := (List.getElem?_eq_some_iff.1 hv).1; omega
      match i, hi with
      | 0, _ => exact ⟨fun _ => textArg_of_given g0 hv, (fun h => by cases h)⟩
      | 1, _ => exact ⟨(fun h => by cases h), fun _ => ⟨p.epoch, (numberArg_ok junk).2 (hv ▸ g1)⟩⟩
      | 2, _ => exact ⟨fun _ => textArg_of_given g2 hv, (fun h => by cases h)⟩
      | 3, _ => exact ⟨fun _ => textArg_of_given g3 hv, (fun h => by cases h)⟩
      | 4, _ => exact ⟨fun _ => textArg_of_given g4 hv, (fun h => by cases h)⟩)
    rw [hp]
    obtain ⟨pn, pe, pv, pr, pa, pi, po, pc⟩ := p
    dsimp only at *
    rw [givenText_unique (parseArgs_text hp rfl) g0, givenNumber_unique (parseArgs_number hp junk rfl) g1,
      givenText_unique (parseArgs_text hp rfl) g2, givenText_unique (parseArgs_text hp rfl) g3,
      givenText_unique (parseArgs_text hp rfl) g4, e1, e2, e3]

/-- C129 fails for a package without epoch: it has whatever was in memory. -/
theorem C129_not_default_epoch : ¬ ∀ junk name p, packageNew junk [.str name] = .ok p → p.epoch = 0 := by
  intro h
  have := h 7 c!"a" { name := some c!"a", epoch := 7 } (by decide +kernel)
  cases this

/-- C129 fails for an epoch that is no 32-bit number: it is not refused. -/
theorem C129_not_exact_epoch : ¬ ∀ (z : Int) p, packageNew 0 [.str c!"a", .int z] = .ok p → (p.epoch : Int) = z := by
  intro h
  have := h 4294967297 { name := some c!"a", epoch := 1 } (by decide +kernel)
  cases this

example : packageNew 7 [.str c!"a", .int 2, .str c!"1", .str c!"3", .str c!"noarch"] =
    .ok { name := some c!"a", epoch := 2, version := some c!"1", release := some c!"3", architecture := some c!"noarch" } := by
  decide +kernel
example : packageNew 7 [.int 2] = .error .type := by decide +kernel

/-- C129: `OperatingSystem(name, version, architecture)`. -/
theorem C129_os (args : List Value) (o : Os.OperatingSystem) : osNew args = .ok o ↔
    args.length ≤ 3 ∧ GivenText args[0]? o.name ∧ GivenText args[1]? o.version ∧ GivenText args[2]? o.architecture ∧
      o.cpe = none ∧ o.desktop = none ∧ o.variant = none ∧ o.uptime = 0 := by
  unfold osNew
  constructor
  · intro h
    split at h
    · cases h
    · next hl =>
      split at h
      · cases h
      · next l hp =>
        cases h
        exact ⟨by omega, parseArgs_text hp rfl, parseArgs_text hp rfl, parseArgs_text hp rfl, rfl, rfl, rfl, rfl⟩
  · rintro ⟨hl, g0, g1, g2, e1, e2, e3, e4⟩
    rw [if_neg (by omega)]
    obtain ⟨l, hp⟩ := parseArgs_total (fs := [false, false, false]) (vs := args) (by simpa using hl) (by
      intro i v hv
      have hi : i < 3 := by have := (List.getElem?_eq_some_iff.1 hv).1; omega
      match i, hi with
      | 0, _ => exact ⟨fun _ => textArg_of_given g0 hv, (fun h => by cases h)⟩
      | 1, _ => exact ⟨fun _ => textArg_of_given g1 hv, (fun h => by cases h)⟩
      | 2, _ => exact ⟨fun _ => textArg_of_given g2 hv, (fun h => by cases h)⟩)
    rw [hp]
    obtain ⟨n, v, a, c, d, w, u⟩ := o
    dsimp only at *
    rw [givenText_unique (parseArgs_text hp rfl) g0, givenText_unique (parseArgs_text hp rfl) g1,
      givenText_unique (parseArgs_text hp rfl) g2, e1, e2, e3, e4]

example : osNew [.str c!"fedora", .str c!"25"] = .ok { name := some c!"fedora", version := some c!"25" } := by decide +kernel

/-- C129: the text of a package whose parts are known and separable is read again by the library, as the same package. -/
theorem C129_text_partial (p : Package) (n v r a : Str) (h : Readable p n v r a) (he : p.epoch < 2 ^ 32) :
    parseNevra (packageStr p) = .ok n p.epoch v r a := by
  by_cases h0 : p.epoch = 0
  · have : packageStr p = printNevra n none v r a := by
      simp [packageStr, versionText, releaseText, architectureText, h.name, h.version, h.release, h.architecture, h0, printNevra]
    rw [this, C35_nevra_print n v r a none (by simp) h.nameNe h.versionNe h.releaseNe h.versionPlain h.releasePlain
      h.architecturePlain, h0]
    rfl
  · have : packageStr p = printNevra n (some p.epoch) v r a := by
      simp [packageStr, versionText, releaseText, architectureText, h.name, h.version, h.release, h.architecture, h0, printNevra]
    rw [this, C35_nevra_print n v r a (some p.epoch) (by simpa using he) h.nameNe h.versionNe h.releaseNe h.versionPlain h.releasePlain
      h.architecturePlain]
    rfl

/-- C129: without architecture the text is read again by the function for names without it (if there is no epoch either). -/
theorem C129_text_nvr_partial (p : Package) (n v r : Str) (hn : p.name = some n) (hv : p.version = some v) (hr : p.release = some r)
    (ha : p.architecture = none) (he : p.epoch = 0) (hn0 : n ≠ []) (hv0 : v ≠ []) (hvd : '-' ∉ v) (hrd : '-' ∉ r) :
    parseNvr (packageStr p) = some (n, v, r) := by
  rw [C35_nvr]
  exact ⟨by simp [packageStr, versionText, releaseText, architectureText, hn, hv, hr, ha, he], hvd, hrd, hn0, hv0⟩

/-- C129 fails for other packages: the text does not tell which part is which. -/
theorem C129_not_text : ∃ p q : Package, packageStr p = packageStr q ∧ p.name ≠ q.name ∧ p.version ≠ q.version :=
  ⟨{ name := some c!"a-1" }, { name := some c!"a", version := some c!"1" }, by decide +kernel, by decide +kernel, by decide +kernel⟩

example : Readable { name := some c!"a", epoch := 2, version := some c!"1", release := some c!"3", architecture := some c!"noarch" }
    c!"a" c!"1" c!"3" c!"noarch" :=
  ⟨rfl, rfl, rfl, rfl, by decide, by decide, by decide, by decide, by decide, by decide⟩
example : packageStr { name := some c!"a", epoch := 2, version := some c!"1", release := some c!"3", architecture := some c!"noarch" } =
    c!"a-2:1-3.noarch" := by decide +kernel

theorem asInt_denotes {v : Value} {z : Int} : v.asInt = some z ↔ Denotes v z := by
  cases v <;> simp [Value.asInt, Denotes, eq_comm]

theorem setChoice_ok (allowed : List Int) (hs : ∀ x ∈ allowed, 0 ≤ x ∧ x < 3) (rhs : Option Value) (z : Int) :
    setChoice allowed rhs = .ok z ↔ z ∈ allowed ∧ ∃ v, rhs = some v ∧ Denotes v z := by
  cases rhs with
  | none => simp [setChoice]
  | some v =>
    simp only [setChoice, Option.some.injEq, exists_eq_left']
    cases hv : v.asInt with
    | none =>
      simp only [reduceCtorEq, false_iff, not_and]
      intro _ hd
      rw [asInt_denotes.2 hd] at hv
      cases hv
    | some y =>
      dsimp only
      constructor
      · intro h
        split at h
        · split at h
          · next hm => cases h; exact ⟨hm, asInt_denotes.1 hv⟩
          · cases h
        · cases h
      · rintro ⟨hm, hd⟩
        rw [asInt_denotes.2 hd] at hv
        cases hv
        have := hs z hm
        rw [if_pos (by omega), if_pos hm]

/-- C129: the role can be set to the numbers 0 and 1 only, is then that number, and everything else stays; in other cases there is an
exception. -/
theorem C129_role (rhs : Option Value) (p q : Package) : setRole rhs p = .ok q ↔
    (∃ v z, rhs = some v ∧ Denotes v z ∧ (z = 0 ∨ z = 1) ∧ getRole q = z) ∧ q = { p with role := q.role } := by
  have hc := setChoice_ok [0, 1] (by decide) rhs
  unfold setRole
  constructor
  · intro h
    split at h
    · cases h
    · next z hz =>
      cases h
      obtain ⟨hm, v, hv, hd⟩ := (hc z).1 hz
      have hz' : z = 0 ∨ z = 1 := by simpa using hm
      refine ⟨⟨v, z, hv, hd, hz', ?_⟩, rfl⟩
      rcases hz' with rfl | rfl <;> rfl
  · rintro ⟨⟨v, z, hv, hd, hz, hg⟩, hq⟩
    rw [(hc z).2 ⟨by simpa using hz, v, hv, hd⟩]
    have : roleOf z = q.role := by
      rcases hz with rfl | rfl
      · cases hr : q.role with
        | unknown => rfl
        | affected => simp [getRole, hr, roleNumber] at hg
      · cases hr : q.role with
        | unknown => simp [getRole, hr, roleNumber] at hg
        | affected => rfl
    dsimp only
    rw [this, ← hq]

/-- C129: the symbols of a shared library can be set to 0, 1 and 2 only. -/
theorem C129_symbols (rhs : Option Value) (l m : Sharedlib) : setSymbols rhs l = .ok m ↔
    (∃ v z, rhs = some v ∧ Denotes v z ∧ (z = 0 ∨ z = 1 ∨ z = 2) ∧ getSymbols m = z) ∧ m = { l with symbols := m.symbols } := by
  have hc := setChoice_ok [0, 1, 2] (by decide) rhs
  unfold setSymbols
  constructor
  · intro h
    split at h
    · cases h
    · next z hz =>
      cases h
      obtain ⟨hm, v, hv, hd⟩ := (hc z).1 hz
      exact ⟨⟨v, z, hv, hd, by simpa using hm, rfl⟩, rfl⟩
  · rintro ⟨⟨v, z, hv, hd, hz, hg⟩, hq⟩
    rw [(hc z).2 ⟨by simpa using hz, v, hv, hd⟩]
    have : z = m.symbols := hg.symm
    dsimp only
    rw [this, ← hq]

example : setRole (some (.int 1)) {} = .ok { role := .affected } := by decide +kernel
example : setRole (some (.int 2)) {} = .error .value := by decide +kernel
example : setRole none {} = .error .type := by decide +kernel
example : setSymbols (some (.int 2)) {} = .ok { symbols := 2 } := by decide +kernel

/-! ## The text of an operating system -/

/-- Texts are cut at the first character of a set in one way only. -/
theorem cut_unique (P : Char → Prop) {a b x y : Str} (ha : ∀ c ∈ a, ¬ P c) (hb : ∀ c ∈ b, ¬ P c)
    (hx : ∀ c t, x = c :: t → P c) (hy : ∀ c t, y = c :: t → P c) (h : a ++ x = b ++ y) : a = b ∧ x = y := by
  induction a generalizing b with
  | nil =>
    cases b with
    | nil => exact ⟨rfl, h⟩
    | cons d b => exact absurd (hx d (b ++ y) h) (hb d (by simp))
  | cons c a ih =>
    cases b with
    | nil => exact absurd (hy c (a ++ x) h.symm) (ha c (by simp))
    | cons d b =>
      simp only [List.cons_append, List.cons.injEq] at h
      obtain ⟨rfl, h⟩ := h
      obtain ⟨rfl, e⟩ := ih (fun c hc => ha c (by simp [hc])) (fun c hc => hb c (by simp [hc])) h
      exact ⟨rfl, e⟩

/-- An operating system with name and version of which the text tells the parts: no blank in the name, no blank or comma in the
version, no closing parenthesis in the architecture. -/
structure PlainOs (o : Os.OperatingSystem) : Prop where
  name : ∃ n, o.name = some n ∧ ' ' ∉ n
  version : ∃ v, o.version = some v ∧ ' ' ∉ v ∧ ',' ∉ v
  architecture : ∀ a, o.architecture = some a → ')' ∉ a

theorem cpe_unique {x y : Option Str} (h : around c!", CPE: " [] x = around c!", CPE: " [] y) : x = y := by
  cases x <;> cases y <;> simp_all [around]

theorem tail_unique {a b c d : Option Str} (ha : ∀ s, a = some s → ')' ∉ s) (hb : ∀ s, b = some s → ')' ∉ s)
    (h : around c!" (" c!")" a ++ around c!", CPE: " [] c = around c!" (" c!")" b ++ around c!", CPE: " [] d) : a = b ∧ c = d := by
  cases a with
  | none =>
    cases b with
    | none => exact ⟨rfl, cpe_unique (by simpa [around] using h)⟩
    | some b => cases c <;> simp [around] at h
  | some a =>
    cases b with
    | none => cases d <;> simp [around] at h
    | some b =>
      have h' : a ++ (')' :: around c!", CPE: " [] c) = b ++ (')' :: around c!", CPE: " [] d) := by
        simpa [around] using h
      obtain ⟨rfl, e⟩ := cut_unique (· = ')') (fun c hc e => ha a rfl (e ▸ hc)) (fun c hc e => hb b rfl (e ▸ hc))
        (fun c t e => by cases e; rfl) (fun c t e => by cases e; rfl) h'
      exact ⟨rfl, cpe_unique (by simpa using e)⟩

theorem tail_head (a c : Option Str) : ∀ x t, around c!" (" c!")" a ++ around c!", CPE: " [] c = x :: t → x = ' ' ∨ x = ',' := by
  intro x t h
  cases a <;> cases c <;> simp [around] at h
  · exact Or.inr h.1.symm
  · exact Or.inl h.1.symm
  · exact Or.inl h.1.symm

/-- C129: different operating systems have different texts, as far as name, version, architecture and CPE go. -/
theorem C129_os_text_partial (o q : Os.OperatingSystem) (ho : PlainOs o) (hq : PlainOs q) :
    osStr o = osStr q ↔ o.name = q.name ∧ o.version = q.version ∧ o.architecture = q.architecture ∧ o.cpe = q.cpe := by
  constructor
  · intro h
    obtain ⟨n, hn, hn'⟩ := ho.name
    obtain ⟨m, hm, hm'⟩ := hq.name
    obtain ⟨v, hv, hv1, hv2⟩ := ho.version
    obtain ⟨w, hw, hw1, hw2⟩ := hq.version
    have h' : n ++ (' ' :: (v ++ (around c!" (" c!")" o.architecture ++ around c!", CPE: " [] o.cpe))) =
        m ++ (' ' :: (w ++ (around c!" (" c!")" q.architecture ++ around c!", CPE: " [] q.cpe))) := by
      have e1 : osStr o = n ++ (' ' :: (v ++ (around c!" (" c!")" o.architecture ++ around c!", CPE: " [] o.cpe))) := by
        unfold osStr; rw [hn, hv, around]; simp
      have e2 : osStr q = m ++ (' ' :: (w ++ (around c!" (" c!")" q.architecture ++ around c!", CPE: " [] q.cpe))) := by
        unfold osStr; rw [hm, hw, around]; simp
      rw [← e1, ← e2, h]
    obtain ⟨rfl, e⟩ := cut_unique (· = ' ') (fun c hc e => hn' (e ▸ hc)) (fun c hc e => hm' (e ▸ hc))
      (fun c t e => by cases e; rfl) (fun c t e => by cases e; rfl) h'
    have e' := (List.cons.inj e).2
    obtain ⟨rfl, e2⟩ := cut_unique (fun c => c = ' ' ∨ c = ',')
      (fun c hc e => e.elim (fun e => hv1 (e ▸ hc)) (fun e => hv2 (e ▸ hc)))
      (fun c hc e => e.elim (fun e => hw1 (e ▸ hc)) (fun e => hw2 (e ▸ hc))) (tail_head _ _) (tail_head _ _) e'
    obtain ⟨ea, ec⟩ := tail_unique ho.architecture hq.architecture e2
    exact ⟨hn.trans hm.symm, hv.trans hw.symm, ea, ec⟩
  · rintro ⟨h1, h2, h3, h4⟩
    unfold osStr
    rw [h1, h2, h3, h4]

/-- C129 fails for other operating systems. -/
theorem C129_not_os_text : ∃ o q : Os.OperatingSystem, osStr o = osStr q ∧ o.name ≠ q.name ∧ o.version ≠ q.version :=
  ⟨{ name := some c!"a b" }, { name := some c!"a", version := some c!"b" }, by decide +kernel, by decide +kernel, by decide +kernel⟩

example : PlainOs { name := some c!"fedora", version := some c!"25", architecture := some c!"x86_64" } :=
  ⟨⟨_, rfl, by decide⟩, ⟨_, rfl, by decide, by decide⟩, by rintro a ⟨⟩; decide⟩
example : osStr { name := some c!"fedora", version := some c!"25", architecture := some c!"x86_64" } = c!"fedora 25 (x86_64)" := by
  decide +kernel

/-- C129 fails for shared libraries: one without name has the text of one that is named so. -/
theorem C129_not_library : ∃ l m : Sharedlib, libStr l = libStr m ∧ l.soname ≠ m.soname :=
  ⟨{}, { soname := some c!"Unknown shared library" }, by decide +kernel, by decide +kernel⟩

/-- C129: libraries with names have the same text only if they have the same name. -/
theorem C129_library_partial (l m : Sharedlib) (hl : l.soname ≠ none) (hm : m.soname ≠ none) :
    libStr l = libStr m ↔ l.soname = m.soname := by
  obtain ⟨s, hs⟩ := Option.ne_none_iff_exists'.1 hl
  obtain ⟨t, ht⟩ := Option.ne_none_iff_exists'.1 hm
  simp [libStr, hs, ht]

example : libStr { soname := some c!"/lib64/libc.so.6" } = c!"/lib64/libc.so.6" := by decide +kernel

end Satyr.Py.Objects
