import Verif.Hash.Format
import Verif.Py.ReportModel
import Verif.Py.ListsProps
import Verif.Report.Json
/-!
# The Python class `Report`: C121
-/
namespace Satyr.Py

open Satyr.Report
open Satyr.CStr (Str)
open Satyr.Frames (JsTrace)

/-! ## Specification -/

/-- The class of a stack trace for a type of reports. -/
inductive OfType : ReportType → Stacktrace → Prop where
  | core (t) : OfType .core (.core t)
  | java (t) : OfType .java (.java t)
  | python (t) : OfType .python (.python t)
  | koops (t) : OfType .kerneloops (.koops t)
  | ruby (t) : OfType .ruby (.ruby t)

/-- The attributes of the object say what is in the report `u`. The contents of packages are `pkg`. -/
structure Describes (pkg : CPtr → Rpm.Package) (s : State) (r : ReportObj) (u : UReport) : Prop where
  packages : ∃ items, r.packages = some items ∧ u.packages = items.map fun x => pkg (s.cOf x)
  noOs : u.os = none → r.os = .none
  os : ∀ o, u.os = some o → r.os = .obj o
  noTrace : u.stacktrace = none → r.trace = .none
  trace : ∀ t, u.stacktrace = some t → r.trace = .obj ⟨t, t⟩ ∧ OfType r.c.type t
  rest : u = { r.c with packages := u.packages, os := u.os, stacktrace := u.stacktrace }

/-- The attributes have values of wrong types: the packages are not a list, or not a list of packages; the operating system is
another object; the stack trace is not one for the type of the report, although there are stack traces for this type. -/
def Wrong (ok : Object → Bool) (r : ReportObj) : Prop :=
  r.packages = none ∨ (∃ items, r.packages = some items ∧ ∃ x ∈ items, ok x = false) ∨ r.os = .other ∨
    ((r.c.type = .core ∨ r.c.type = .java ∨ r.c.type = .python ∨ r.c.type = .kerneloops ∨ r.c.type = .ruby) ∧
      (r.trace = .other ∨ ∃ t, r.trace = .obj t ∧ ¬ OfType r.c.type t.c))

/-! ## Lemmas -/

theorem packagesLoop_eq (ok : Object → Bool) (report : CPtr) : ∀ (l : List Object) (prev : Option Object) (s : State),
    packagesLoop ok report l prev s = framesLoop ok report l prev s
  | [], _, _ => rfl
  | x :: l, prev, s => by
    rw [packagesLoop, framesLoop]
    simp only [packagesLoop_eq ok report l]
    rfl

theorem preparePackages_eq (ok : Object → Bool) (r : ReportObj) (s : State) {items : List Object} (h : r.packages = some items) :
    preparePackages ok r s = prepareFrames ok r.ptr items s := by
  unfold preparePackages prepareFrames
  rw [h]
  exact packagesLoop_eq _ _ _ _ _

theorem walk_linked (pkg : CPtr → Rpm.Package) (next : CPtr → CPtr) : ∀ (n : Nat) (l : List CPtr) (p : CPtr), Linked next p l →
    l.length < n → walk pkg next n p = some (l.map pkg)
  | 0, _, _, _, h => absurd h (by omega)
  | n + 1, [], p, h, _ => by
    rw [walk, if_pos (show p = 0 from h)]; rfl
  | n + 1, x :: l, p, ⟨h1, h2, h3⟩, h => by
    subst h1
    rw [walk, if_neg h2, walk_linked pkg next n l _ h3 (by simp at h; omega)]
    rfl

theorem prepareTrace_of {type : ReportType} {t : Stacktrace} (h : OfType type t) (l : Stacktrace) :
    prepareTrace type (.obj ⟨t, l⟩) = some (some t) := by
  cases h <;> rfl

theorem prepareTrace_none (type : ReportType) (a : Member PyTrace) : prepareTrace type a = none ↔
    (type = .core ∨ type = .java ∨ type = .python ∨ type = .kerneloops ∨ type = .ruby) ∧
      (a = .other ∨ ∃ t, a = .obj t ∧ ¬ OfType type t.c) := by
  cases a with
  | none => simp [prepareTrace]
  | other => cases type <;> simp [prepareTrace, checkTrace]
  | obj t =>
    obtain ⟨c, l⟩ := t
    cases type <;> cases c <;> simp [prepareTrace, checkTrace, isCore, isJava, isPython, isKoops, isRuby] <;>
      first | constructor | (intro h; cases h)

theorem prepare_describes {pkg : CPtr → Rpm.Package} {s s' : State} {r : ReportObj} {u : UReport} {ok : Object → Bool}
    (h : Describes pkg s r u) (hp : preparePackages ok r s = (true, s')) :
    prepare ok r s = (true, { r with c := { r.c with os := u.os, stacktrace := u.stacktrace } }, s') := by
  have e1 : prepareOs r.os = some u.os := by
    cases ho : u.os with
    | none => rw [h.noOs ho]; rfl
    | some o => rw [h.os o ho]; rfl
  have e2 : prepareTrace r.c.type r.trace = some u.stacktrace := by
    cases ht : u.stacktrace with
    | none => rw [h.noTrace ht]; rfl
    | some t => rw [(h.trace t ht).1, prepareTrace_of (h.trace t ht).2]
  unfold prepare
  rw [hp]
  dsimp only
  rw [e1]
  dsimp only
  rw [e2]

theorem Describes.keep {pkg : CPtr → Rpm.Package} {s s' : State} {r : ReportObj} {u : UReport} (h : Describes pkg s r u)
    (hc : s'.cOf = s.cOf) : Describes pkg s' { r with c := { r.c with os := u.os, stacktrace := u.stacktrace } } u where
  packages := by rw [hc]; exact h.packages
  noOs := h.noOs
  os := h.os
  noTrace := h.noTrace
  trace := h.trace
  rest := h.rest

theorem reportToJson_of {n : Nat} {ok : Object → Bool} {pkg : CPtr → Rpm.Package} {r r' : ReportObj} {s s' : State} {u : UReport}
    {t : Str} (h1 : prepare ok r s = (true, r', s')) (h2 : seen n pkg r' s' = some u) (h3 : toJson u = .ok t) :
    reportToJson n ok pkg r s = .ok (some t, r', s') := by
  unfold reportToJson
  rw [h1]
  dsimp only
  rw [h2]
  dsimp only
  rw [h3]

/-! ## C121 -/

/-- **C121.** `to_json` writes the report that the attributes of the object say now: the packages of the Python list in their
order, the operating system, the stack trace, and the other attributes. No reference counts change, and the attributes say the
same afterwards. Here the list of packages is not empty and has no package twice. -/
theorem C121_json_partial (pkg : CPtr → Rpm.Package) (ok : Object → Bool) (r : ReportObj) (s : State) (u : UReport) (n : Nat)
    (h : Describes pkg s r u) {items : List Object} (hi : r.packages = some items) (hne : items ≠ [])
    (hok : ∀ x ∈ items, ok x = true) (hd : (items.map s.cOf).Nodup) (hz : ∀ x ∈ items, s.cOf x ≠ 0) (hn : items.length < n) :
    ∃ r' s', s'.refs = s.refs ∧ Describes pkg s' r' u ∧
      reportToJson n ok pkg r s = toJson u >>= fun t => Out.ok (some t, r', s') := by
  cases items with
  | nil => exact absurd rfl hne
  | cons x l =>
    obtain ⟨s', e1, e2, -, e3, e4, -⟩ := prepareFrames_spec ok r.ptr x l s hok hd hz
    rw [← preparePackages_eq ok r s hi] at e1
    refine ⟨_, s', e3, h.keep e2, ?_⟩
    have e5 : seen n pkg { r with c := { r.c with os := u.os, stacktrace := u.stacktrace } } s' = some u := by
      unfold seen
      dsimp only
      rw [walk_linked pkg s'.next n _ _ e4 (by simpa using hn), Option.map_some]
      obtain ⟨items, hi', hu⟩ := h.packages
      rw [hi] at hi'
      cases hi'
      have := h.rest
      rw [hu] at this
      rw [this]
      simp [List.map_map, Function.comp_def]
    unfold reportToJson
    rw [prepare_describes h e1]
    dsimp only
    rw [e5]
    dsimp only
    cases toJson u <;> rfl

/-- **C121.** An exception is raised exactly if an attribute has a value of a wrong type; then nothing is written, and no reference
counts change. -/
theorem C121_refused (pkg : CPtr → Rpm.Package) (ok : Object → Bool) (r : ReportObj) (s : State) (n : Nat) :
    (Wrong ok r ↔ ∃ r' s', reportToJson n ok pkg r s = .ok (none, r', s')) ∧
    ∀ r' s', reportToJson n ok pkg r s = .ok (none, r', s') → s'.refs = s.refs := by
  have e0 : ∀ {b s'}, preparePackages ok r s = (b, s') → s'.refs = s.refs ∧
      (b = false ↔ r.packages = none ∨ ∃ items, r.packages = some items ∧ ∃ x ∈ items, ok x = false) := by
    intro b s' e
    cases hi : r.packages with
    | none =>
      unfold preparePackages at e
      rw [hi] at e
      cases e
      simp
    | some items =>
      rw [preparePackages_eq ok r s hi] at e
      obtain ⟨h1, h2⟩ := C104_refs ok r.ptr items s
      rw [e] at h1 h2
      refine ⟨h1, ?_⟩
      simp only [reduceCtorEq, Option.some.injEq, false_or, exists_eq_left']
      rw [← Bool.not_eq_true, h2]
      simp
  unfold Wrong reportToJson prepare
  rcases e1 : preparePackages ok r s with ⟨b, s'⟩
  obtain ⟨h1, h2⟩ := e0 e1
  cases b with
  | false =>
    refine ⟨⟨fun _ => ⟨_, _, rfl⟩, fun _ => ?_⟩, fun r' s'' e => ?_⟩
    · rcases h2.1 rfl with h | h
      · exact .inl h
      · exact .inr (.inl h)
    · cases e; exact h1
  | true =>
    have h3 : ¬ (r.packages = none ∨ ∃ items, r.packages = some items ∧ ∃ x ∈ items, ok x = false) := fun h => by
      have := h2.2 h; cases this
    rw [not_or] at h3
    cases ho : r.os with
    | other =>
      refine ⟨⟨fun _ => ⟨_, _, rfl⟩, fun _ => .inr (.inr (.inl rfl))⟩, fun r' s'' e => ?_⟩
      cases e; exact h1
    | none =>
      dsimp only [prepareOs]
      cases ht : prepareTrace r.c.type r.trace with
      | none =>
        refine ⟨⟨fun _ => ⟨_, _, rfl⟩, fun _ => .inr (.inr (.inr ((prepareTrace_none _ _).1 ht)))⟩, fun r' s'' e => ?_⟩
        cases e; exact h1
      | some t =>
        have h4 : ¬ _ := fun h => nomatch ((prepareTrace_none r.c.type r.trace).2 h).symm.trans ht
        refine ⟨⟨?_, ?_⟩, ?_⟩
        · rintro (h | h | h | h)
          · exact absurd h h3.1
          · exact absurd h h3.2
          · cases h
          · exact (h4 h).elim
        · rintro ⟨r', s'', e⟩
          dsimp only at e
          split at e
          · cases e
          · split at e <;> cases e
        · intro r' s'' e
          dsimp only at e
          split at e
          · cases e
          · split at e <;> cases e
    | obj o =>
      dsimp only [prepareOs]
      cases ht : prepareTrace r.c.type r.trace with
      | none =>
        refine ⟨⟨fun _ => ⟨_, _, rfl⟩, fun _ => .inr (.inr (.inr ((prepareTrace_none _ _).1 ht)))⟩, fun r' s'' e => ?_⟩
        cases e; exact h1
      | some t =>
        have h4 : ¬ _ := fun h => nomatch ((prepareTrace_none r.c.type r.trace).2 h).symm.trans ht
        refine ⟨⟨?_, ?_⟩, ?_⟩
        · rintro (h | h | h | h)
          · exact absurd h h3.1
          · exact absurd h h3.2
          · cases h
          · exact (h4 h).elim
        · rintro ⟨r', s'', e⟩
          dsimp only at e
          split at e
          · cases e
          · split at e <;> cases e
        · intro r' s'' e
          dsimp only at e
          split at e
          · cases e
          · split at e <;> cases e

/-- **C121.** The object made for a C report says what is in the report, and `to_json` writes this report, if its stack trace is
one that the class `Report` knows. Here the packages of the report are the C structures `l`. -/
theorem C121_new_partial (pkg : CPtr → Rpm.Package) (ok : Object → Bool) (hok : ∀ x, ok x = true) (c : UReport) (ptr : CPtr) (s : State)
    (l : List CPtr) (n : Nat) (free : Object) (hl : Linked s.next (s.frames ptr) l) (hd : l.Nodup) (hz : ∀ x ∈ l, x ≠ 0)
    (hn : l.length < n) (hp : c.packages = l.map pkg) (ht : ∀ t, c.stacktrace = some t → OfType c.type t) :
    ∃ r s', reportObj n free c ptr s = some (r, s') ∧ Describes pkg s' r c ∧
      ∃ r' s'', reportToJson n ok pkg r s' = toJson c >>= fun t => Out.ok (some t, r', s'') := by
  obtain ⟨s', e1, e2, e3, e4, -⟩ := C106_to_list_partial l n _ free s hn hl
  have hdesc : Describes pkg s' { c := c, ptr := ptr, packages := some (List.range' free l.length), os := wrapOs c.os, trace := wrapTrace c.type c.stacktrace } c := by
    refine ⟨⟨_, rfl, ?_⟩, fun h => ?_, fun o h => ?_, fun h => ?_, fun t h => ?_, rfl⟩
    · rw [hp]
      conv => lhs; rw [← e2]
      rw [List.map_map]; rfl
    · dsimp only; rw [h]; rfl
    · dsimp only; rw [h]; rfl
    · dsimp only; rw [h]; rfl
    · refine ⟨?_, ht t h⟩
      dsimp only
      rw [h]
      have := ht t h
      revert this
      generalize c.type = ty
      intro this
      cases this <;> rfl
  refine ⟨_, s', by unfold reportObj; rw [e1, Option.map_some], hdesc, ?_⟩
  cases l with
  | cons x l' =>
    obtain ⟨r', s'', -, -, e⟩ := C121_json_partial pkg ok _ s' c n hdesc rfl (by simp) (fun x _ => hok x) (by rw [e2]; exact hd)
      (fun x hx => hz _ (by rw [← e2]; exact List.mem_map_of_mem hx)) (by simpa using hn)
    exact ⟨r', s'', e⟩
  | nil =>
    have e5 : preparePackages ok { c := c, ptr := ptr, packages := some [], os := wrapOs c.os, trace := wrapTrace c.type c.stacktrace } s' = (true, s') := rfl
    have e6 : seen n pkg { c := { c with os := c.os, stacktrace := c.stacktrace }, ptr := ptr, packages := some [], os := wrapOs c.os, trace := wrapTrace c.type c.stacktrace } s' = some c := by
      unfold seen
      dsimp only
      rw [walk_linked pkg s'.next n [] _ (by rw [e3, e4]; exact hl) hn, Option.map_some, ← hp]
    refine ⟨{ c := { c with os := c.os, stacktrace := c.stacktrace }, ptr := ptr, packages := some [], os := wrapOs c.os, trace := wrapTrace c.type c.stacktrace }, s', ?_⟩
    unfold reportToJson
    dsimp only [List.length_nil, List.range'_zero] at hdesc ⊢
    rw [prepare_describes hdesc e5]
    dsimp only at e6 ⊢
    erw [e6]
    dsimp only
    cases toJson c <;> rfl

/-- **C121.** A type can be set exactly if it is the name of a type other than "invalid"; the type read then is the one set, and
nothing else changes. -/
theorem C121_type (r : ReportObj) (v : Str) :
    (setType r v ≠ none ↔ ∃ t : ReportType, t ≠ .invalid ∧ v = typeToString t.code) ∧
    ∀ r', setType r v = some r' → getType r' = v ∧ r' = { r with c := { r.c with type := r'.c.type } } := by
  have key : ∀ t : ReportType, t ≠ .invalid →
      setType r (typeToString t.code) = some { r with c := { r.c with type := t } } := by
    intro t ht
    unfold setType
    rw [C49_round_trip]
    cases t
    · exact absurd rfl ht
    all_goals rfl
  have key2 : setType r v ≠ none → ∃ t : ReportType, t ≠ .invalid ∧ v = typeToString t.code := by
    intro h
    rcases C49_from_string (some v) with ⟨t, h1, h2⟩ | ⟨-, h2⟩
    · refine ⟨t, fun e => h ?_, Option.some.inj h1⟩
      unfold setType
      rw [h2, e, if_pos rfl]
    · refine absurd ?_ h
      unfold setType
      rw [h2, if_pos rfl]
  refine ⟨⟨key2, ?_⟩, fun r' h => ?_⟩
  · rintro ⟨t, ht, rfl⟩
    rw [key t ht]
    exact fun h => by cases h
  · obtain ⟨t, ht, rfl⟩ := key2 (by rw [h]; exact fun h => by cases h)
    rw [key t ht] at h
    cases h
    exact ⟨rfl, rfl⟩

theorem dictSet_find (k v : Str) (x : Str) : ∀ d : List (Str × Str),
    (dictSet k v d).find? (fun e => e.1 == x) = if k = x then some (k, v) else d.find? fun e => e.1 == x
  | [] => by
    rw [dictSet]
    by_cases h : k = x <;> simp [h]
  | e :: d => by
    rw [dictSet]
    by_cases h : e.1 = k
    · rw [if_pos h]
      by_cases h' : k = x
      · rw [if_pos h']; simp [h']
      · rw [if_neg h', List.find?_cons_of_neg (by simpa using h'), List.find?_cons_of_neg (by rw [h]; simpa using h')]
    · rw [if_neg h]
      by_cases h' : e.1 = x
      · rw [List.find?_cons_of_pos (by simpa using h'), List.find?_cons_of_pos (by simpa using h'),
          if_neg (fun e' => h (h'.trans e'.symm))]
      · rw [List.find?_cons_of_neg (by simpa using h'), List.find?_cons_of_neg (by simpa using h'), dictSet_find k v x d]

theorem dictSet_keys (k v : Str) : ∀ d : List (Str × Str), (d.map Prod.fst).Nodup →
    ((dictSet k v d).map Prod.fst).Nodup ∧ ∀ x ∈ (dictSet k v d).map Prod.fst, x = k ∨ x ∈ d.map Prod.fst
  | [], _ => by simp [dictSet]
  | e :: d, h => by
    rw [dictSet]
    rw [List.map_cons, List.nodup_cons] at h
    split
    case isTrue he => 
      subst he
      refine ⟨by rw [List.map_cons, List.nodup_cons]; exact h, ?_⟩
      intro x hx
      rw [List.map_cons, List.mem_cons] at hx
      rcases hx with hx | hx
      · exact .inl hx
      · exact .inr (by rw [List.map_cons]; exact List.mem_cons_of_mem _ hx)
    case isFalse he =>
      obtain ⟨h1, h2⟩ := dictSet_keys k v d h.2
      refine ⟨?_, ?_⟩
      · rw [List.map_cons, List.nodup_cons]
        refine ⟨fun hm => ?_, h1⟩
        rcases h2 _ hm with e' | hm
        · exact he e'
        · exact h.1 hm
      · intro x hx
        rw [List.map_cons, List.mem_cons] at hx
        rcases hx with hx | hx
        · exact .inr (by rw [List.map_cons, hx]; exact List.mem_cons_self)
        · rcases h2 x hx with hx | hx
          · exact .inl hx
          · exact .inr (by rw [List.map_cons]; exact List.mem_cons_of_mem _ hx)

theorem dictSet_new (k v : Str) : ∀ d : List (Str × Str), k ∉ d.map Prod.fst → dictSet k v d = d ++ [(k, v)]
  | [], _ => rfl
  | e :: d, h => by
    rw [List.map_cons, List.mem_cons, not_or] at h
    rw [dictSet, if_neg (fun e' => h.1 e'.symm), dictSet_new k v d h.2]
    rfl

/-- **C121.** The dictionary `auth` has each key of the authentication entries once, with the value of its last entry; if no key is
repeated, it has exactly the entries. -/
theorem C121_auth (r : ReportObj) :
    ((getAuth r).map Prod.fst).Nodup ∧
    (∀ k, (getAuth r).find? (fun e => e.1 == k) = r.c.auth.reverse.find? fun e => e.1 == k) ∧
    ((r.c.auth.map Prod.fst).Nodup → getAuth r = r.c.auth) := by
  unfold getAuth
  generalize r.c.auth = l
  have g : ∀ (l d : List (Str × Str)), (d.map Prod.fst).Nodup →
      ((l.foldl (fun d e => dictSet e.1 e.2 d) d).map Prod.fst).Nodup ∧
      (∀ k, (l.foldl (fun d e => dictSet e.1 e.2 d) d).find? (fun e => e.1 == k) =
        (l.reverse.find? fun e => e.1 == k).or (d.find? fun e => e.1 == k)) ∧
      (((d ++ l).map Prod.fst).Nodup → l.foldl (fun d e => dictSet e.1 e.2 d) d = d ++ l) := by
    intro l
    induction l with
    | nil => intro d hd; exact ⟨hd, fun k => by simp, fun _ => by simp⟩
    | cons e l ih =>
      intro d hd
      obtain ⟨h1, h2, h3⟩ := ih (dictSet e.1 e.2 d) (dictSet_keys _ _ d hd).1
      rw [List.foldl_cons]
      refine ⟨h1, fun k => ?_, fun hn => ?_⟩
      · rw [h2 k, dictSet_find, List.reverse_cons, List.find?_append, Option.or_assoc]
        congr 1
        by_cases hk : e.1 = k
        · rw [if_pos hk, List.find?_cons_of_pos (by simpa using hk)]; rfl
        · rw [if_neg hk, List.find?_cons_of_neg (by simpa using hk)]; simp
      · have hk : e.1 ∉ d.map Prod.fst := by
          intro hm
          rw [List.map_append, List.map_cons] at hn
          exact (List.nodup_append.1 hn).2.2 _ hm _ List.mem_cons_self rfl
        have e' : dictSet e.1 e.2 d = d ++ [e] := dictSet_new _ _ d hk
        rw [h3 (by rw [e']; simpa using hn), e']
        simp
  obtain ⟨h1, h2, h3⟩ := g l [] (by simp)
  exact ⟨h1, fun k => by rw [h2 k]; simp, fun h => by rw [h3 (by simpa using h)]; rfl⟩

/-! ## Examples and what does not hold -/

def pkgs : CPtr → Rpm.Package := fun p =>
  { name := some (List.replicate p 'a'), version := some c!"1", release := some c!"2", architecture := some c!"noarch" }

/-- A report of a Python problem with two packages, whose C structures are 1 and 2. -/
def exTrace : Stacktrace :=
  .python { exceptionName := some c!"E", frames := [{ fileName := some c!"a.py", fileLine := 3, functionName := some c!"f" }] }
def exReport : UReport :=
  { type := .python, reporterName := c!"satyr", reporterVersion := c!"0.43", component := some c!"x",
    packages := [pkgs 1, pkgs 2], stacktrace := some exTrace }
def exObj : ReportObj :=
  { c := exReport, ptr := 10, packages := some [1, 2], os := .none, trace := .obj ⟨exTrace, exTrace⟩ }

example : Describes pkgs blank exObj exReport :=
  ⟨⟨_, rfl, rfl⟩, fun _ => rfl, (fun o h => by cases h), (fun h => by cases h), (fun t h => by cases h; exact ⟨rfl, .python _⟩), rfl⟩
theorem exReport_ok : ∃ t, toJson exReport = .ok t := by
  cases h : toJson exReport with
  | ok t => exact ⟨t, rfl⟩
  | abort => exact absurd h (by decide +kernel)
  | ub => exact absurd h (by decide +kernel)
example : Wrong (fun _ => true) { exObj with os := .other } := .inr (.inr (.inl rfl))
example : Wrong (fun _ => true) { exObj with trace := .obj ⟨.core {}, .core {}⟩ } :=
  .inr (.inr (.inr ⟨.inr (.inr (.inl rfl)), .inr ⟨_, rfl, fun h => by cases h⟩⟩))

/-- What is missing in C121: if the list of packages becomes empty, the packages of the last call are still written. -/
theorem C121_not_empty : ∃ (r r' : ReportObj) (s s' : State) (t : Str), reportToJson 5 (fun _ => true) pkgs r s = .ok (some t, r', s') ∧
    ∃ r'' s'', reportToJson 5 (fun _ => true) pkgs { r' with packages := some [] } s' = .ok (some t, r'', s'') ∧
    toJson { exReport with packages := [] } ≠ .ok t ∧ Describes pkgs s' { r' with packages := some [] } { exReport with packages := [] } := by
  obtain ⟨t, ht⟩ := exReport_ok
  refine ⟨exObj, _, blank, _, t, reportToJson_of rfl rfl ht, _, _, reportToJson_of rfl rfl ht, ?_, ?_⟩
  · rw [← ht]; decide +kernel
  · exact ⟨⟨_, rfl, rfl⟩, fun _ => rfl, (fun o h => by cases h), (fun h => by cases h), (fun t h => by cases h; exact ⟨rfl, .python _⟩), rfl⟩

/-- What is missing in C121: with a package that occurs twice in the list, others are lost. -/
theorem C121_not_repeated : ∃ (r r' : ReportObj) (s' : State) (t : Str), r.packages = some [1, 2, 1] ∧
    reportToJson 5 (fun _ => true) pkgs r blank = .ok (some t, r', s') ∧ toJson { exReport with packages := [pkgs 1] } = .ok t := by
  cases h : toJson { exReport with packages := [pkgs 1] } with
  | ok t => exact ⟨{ exObj with packages := some [1, 2, 1] }, _, _, t, rfl, reportToJson_of rfl rfl h, rfl⟩
  | abort => exact absurd h (by decide +kernel)
  | ub => exact absurd h (by decide +kernel)

/-- What is missing in C121: changes of the Python lists of threads and frames of the stack trace are not written; it does not
matter for `to_json` what they say. -/
theorem C121_not_lists (pkg : CPtr → Rpm.Package) (ok : Object → Bool) (n : Nat) (r : ReportObj) (s : State) (c l : Stacktrace)
    (hr : r.trace = .obj ⟨c, c⟩) :
    (reportToJson n ok pkg { r with trace := .obj ⟨c, l⟩ } s >>= fun x => Out.ok x.1) =
      (reportToJson n ok pkg r s >>= fun x => Out.ok x.1) := by
  have e1 : preparePackages ok { r with trace := .obj ⟨c, l⟩ } s = preparePackages ok r s := rfl
  have e2 : prepareTrace r.c.type (.obj ⟨c, l⟩) = prepareTrace r.c.type r.trace := by
    rw [hr]; cases r.c.type <;> rfl
  unfold reportToJson prepare
  rw [e1]
  rcases preparePackages ok r s with ⟨b, s'⟩
  cases b
  · rfl
  · dsimp only
    rw [e2]
    cases prepareOs r.os with
    | none => rfl
    | some o =>
      cases prepareTrace r.c.type r.trace with
      | none => rfl
      | some t =>
        dsimp only [seen]
        cases walk pkg s'.next n (s'.frames r.ptr) with
        | none => rfl
        | some l' =>
          dsimp only [Option.map_some]
          cases toJson { r.c with packages := l', os := o, stacktrace := t } <;> rfl

/-- What is missing in C121: a stack trace of JavaScript gets lost when the object is made, and then a null pointer is read when
the report is to be written. -/
theorem C121_not_javascript (pkg : CPtr → Rpm.Package) (ok : Object → Bool) (c : UReport) (ptr : CPtr) (s : State) (free : Object)
    (t : JsTrace) (ht : c.type = .javascript) (hs : c.stacktrace = some (.js t)) (hp : s.frames ptr = 0) :
    ∃ r s', reportObj 1 free c ptr s = some (r, s') ∧ r.trace = .none ∧ reportToJson 1 ok pkg r s' = .ub := by
  have e1 : reportObj 1 free c ptr s = some ({ c := c, ptr := ptr, packages := some [], os := wrapOs c.os, trace := .none }, s) := by
    unfold reportObj toList wrapTrace
    rw [if_pos hp, Option.map_some, hs]
    dsimp only
    rw [ht]
  refine ⟨_, _, e1, rfl, ?_⟩
  have e2 : preparePackages ok { c := c, ptr := ptr, packages := some [], os := wrapOs c.os, trace := .none } s = (true, s) := rfl
  have e3 : prepareOs (wrapOs c.os) = some c.os := by cases c.os <;> rfl
  unfold reportToJson prepare
  rw [e2]
  dsimp only
  rw [e3]
  dsimp only [prepareTrace, seen, walk]
  rw [if_pos hp]
  dsimp only [Option.map_some]
  rw [C48_not_missing_stacktrace _ (by dsimp only; rw [ht]; rfl) rfl]

/-- What is missing in C121: if the type of a new report is set to "core" and it is written without a stack trace, a null pointer
is read. -/
theorem C121_not_without_stacktrace : ∃ r r' : ReportObj, r.trace = .none ∧ setType r c!"core" = some r' ∧
    reportToJson 5 (fun _ => true) pkgs r' blank = .ub :=
  ⟨{ c := { reporterName := c!"satyr", reporterVersion := c!"0.43" }, ptr := 10, packages := some [], os := .none, trace := .none },
    _, rfl, rfl, rfl⟩

/-- C121: what `str` gives for a report. -/
theorem C121_str (r : ReportObj) : reportStr r =
    Hash.printf c!"Report, type: %s" [.str (some (getType r))] ++
      (r.c.component.elim [] fun s => Hash.printf c!", component: %s" [.str (some s)]) := by
  unfold reportStr getType
  cases r.c.component with
  | none => simp [Hash.printf, Hash.conv]
  | some s => simp [Hash.printf, Hash.conv]

example : reportStr ⟨{ reporterName := [], reporterVersion := [], type := .ruby, component := some c!"bash" }, 1, none, .none, .none⟩ = c!"Report, type: ruby, component: bash" := by decide +kernel

end Satyr.Py
