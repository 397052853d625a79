import Verif.Rpm.DbModel
import Mathlib.Data.List.Forall2
/-!
# C128: packages found in the rpm database

The specification: `Describes h p` says what package a header describes; `Lacks h m released` says which attribute is the first one
that is missing.
-/
namespace Satyr.Rpm.Db
open Satyr.CStr Satyr.Rpm

/-- The package that a header with all tags describes. -/
def Describes (h : Header) (p : Package) : Prop :=
  ∃ n e v r a t, h = ⟨.value n, .value e, .value v, .value r, .value a, .value t⟩ ∧
    p.name = some n ∧ p.epoch = e ∧ p.version = some v ∧ p.release = some r ∧ p.architecture = some a ∧ p.installTime = t ∧
    p.role = .unknown ∧ p.consistency = []

/-- A tag has no usable value; `l` objects stay allocated. -/
def NoValue {α : Type} (t : Tag α) (l : Nat) : Prop := (t = .missing ∧ l = 1) ∨ (t = .badType ∧ l = 0)

def Has {α : Type} (t : Tag α) : Prop := ∃ x, t = .value x

/-- The first attribute without a value, in the words of the message. -/
def Lacks (h : Header) (what : Str) (l : Nat) : Prop :=
  (what = c!"name" ∧ NoValue h.name l) ∨
  (what = c!"epoch" ∧ Has h.name ∧ NoValue h.epoch l) ∨
  (what = c!"version" ∧ Has h.name ∧ Has h.epoch ∧ NoValue h.version l) ∨
  (what = c!"release" ∧ Has h.name ∧ Has h.epoch ∧ Has h.version ∧ NoValue h.release l) ∨
  (what = c!"architecture" ∧ Has h.name ∧ Has h.epoch ∧ Has h.version ∧ Has h.release ∧ NoValue h.architecture l) ∨
  (what = c!"installation time" ∧ Has h.name ∧ Has h.epoch ∧ Has h.version ∧ Has h.release ∧ Has h.architecture ∧
    NoValue h.installTime l)

/-! ## Proofs -/

theorem headerGet_value {α : Type} (x : α) (w : World) : headerGet (.value x) w = (some x, w) := by
  simp [headerGet]

theorem headerGet_none {α : Type} {t : Tag α} {l : Nat} (h : NoValue t l) (w : World) :
    headerGet t w = (none, { w with tagData := w.tagData + l }) := by
  rcases h with ⟨rfl, rfl⟩ | ⟨rfl, rfl⟩ <;> simp [headerGet]

theorem headerToPackage_value {h : Header} {p : Package} (hp : Describes h p) (w : World) :
    headerToPackage h w = (some p, { w with packages := w.packages + 1 }) := by
  obtain ⟨n, e, v, r, a, t, rfl, h1, h2, h3, h4, h5, h6, h7, h8⟩ := hp
  obtain ⟨pn, pe, pv, pr, pa, pt, prole, pc⟩ := p
  simp only at h1 h2 h3 h4 h5 h6 h7 h8
  subst h1 h2 h3 h4 h5 h6 h7 h8
  simp [headerToPackage, headerGet_value]

theorem headerToPackage_lacks {h : Header} {what : Str} {l : Nat} (hl : Lacks h what l) (w : World) :
    headerToPackage h w = (none, { w with tagData := w.tagData + l, message := some (c!"Failed to find package " ++ what ++ c!".") }) := by
  obtain ⟨tn, te, tv, tr, ta, tt⟩ := h
  rcases hl with ⟨rfl, h⟩ | ⟨rfl, ⟨_, rfl⟩, h⟩ | ⟨rfl, ⟨_, rfl⟩, ⟨_, rfl⟩, h⟩ | ⟨rfl, ⟨_, rfl⟩, ⟨_, rfl⟩, ⟨_, rfl⟩, h⟩ |
    ⟨rfl, ⟨_, rfl⟩, ⟨_, rfl⟩, ⟨_, rfl⟩, ⟨_, rfl⟩, h⟩ | ⟨rfl, ⟨_, rfl⟩, ⟨_, rfl⟩, ⟨_, rfl⟩, ⟨_, rfl⟩, ⟨_, rfl⟩, h⟩ <;>
    simp [headerToPackage, headerGet_value, headerGet_none h, fail]

theorem loop_values {hs : List Header} {ps : List Package} (h : List.Forall₂ Describes hs ps) (rest : List Header) :
    ∀ (acc : List Package) (w : World),
      loop acc (hs ++ rest) w = loop (acc ++ ps) rest { w with packages := w.packages + ps.length } := by
  induction h with
  | nil => intro acc w; simp
  | @cons h p hs ps hp _ ih =>
    intro acc w
    rw [List.cons_append, loop, headerToPackage_value hp]
    dsimp only
    rw [ih]
    simp [Nat.add_comm, Nat.add_left_comm]

/-- A header describes one package or lacks an attribute. -/
theorem describes_or_lacks (h : Header) : (∃ p, Describes h p) ∨ ∃ what l, Lacks h what l := by
  obtain ⟨tn, te, tv, tr, ta, tt⟩ := h
  have none_of : ∀ {α : Type} (t : Tag α), Has t ∨ ∃ l, NoValue t l := fun t => by
    cases t with
    | missing => exact Or.inr ⟨1, Or.inl ⟨rfl, rfl⟩⟩
    | badType => exact Or.inr ⟨0, Or.inr ⟨rfl, rfl⟩⟩
    | value x => exact Or.inl ⟨x, rfl⟩
  rcases none_of tn with hn | ⟨l, h⟩
  swap; · exact Or.inr ⟨_, l, Or.inl ⟨rfl, h⟩⟩
  rcases none_of te with he | ⟨l, h⟩
  swap; · exact Or.inr ⟨_, l, Or.inr (Or.inl ⟨rfl, hn, h⟩)⟩
  rcases none_of tv with hv | ⟨l, h⟩
  swap; · exact Or.inr ⟨_, l, Or.inr (Or.inr (Or.inl ⟨rfl, hn, he, h⟩))⟩
  rcases none_of tr with hr | ⟨l, h⟩
  swap; · exact Or.inr ⟨_, l, Or.inr (Or.inr (Or.inr (Or.inl ⟨rfl, hn, he, hv, h⟩)))⟩
  rcases none_of ta with ha | ⟨l, h⟩
  swap; · exact Or.inr ⟨_, l, Or.inr (Or.inr (Or.inr (Or.inr (Or.inl ⟨rfl, hn, he, hv, hr, h⟩))))⟩
  rcases none_of tt with ht | ⟨l, h⟩
  swap; · exact Or.inr ⟨_, l, Or.inr (Or.inr (Or.inr (Or.inr (Or.inr ⟨rfl, hn, he, hv, hr, ha, h⟩))))⟩
  obtain ⟨n, rfl⟩ := hn; obtain ⟨e, rfl⟩ := he; obtain ⟨v, rfl⟩ := hv
  obtain ⟨r, rfl⟩ := hr; obtain ⟨a, rfl⟩ := ha; obtain ⟨t, rfl⟩ := ht
  exact Or.inl ⟨{ name := some n, epoch := e, version := some v, release := some r, architecture := some a, installTime := t },
    n, e, v, r, a, t, rfl, rfl, rfl, rfl, rfl, rfl, rfl, rfl, rfl⟩

/-! ## C128 -/

/-- C128: if every header that is found has all attributes, the result is the list of the packages they describe, in this order;
there is no message, and nothing but the packages stays allocated. -/
theorem C128_found_partial (found : List Header) (ps : List Package) (h : List.Forall₂ Describes found ps) (w : World) :
    lookup true true found w = (ps, { w with packages := w.packages + ps.length }) := by
  have hl := loop_values h [] [] { w with sets := w.sets + 1, iterators := w.iterators + 1 }
  simp only [List.append_nil, List.nil_append] at hl
  simp [lookup, hl, loop]

example : Describes ⟨.value c!"bash", .value 1, .value c!"5.2", .value c!"1", .value c!"x86_64", .value 7⟩
    { name := some c!"bash", epoch := 1, version := some c!"5.2", release := some c!"1", architecture := some c!"x86_64", installTime := 7 } :=
  ⟨_, _, _, _, _, _, rfl, rfl, rfl, rfl, rfl, rfl, rfl, rfl, rfl⟩

/-- C128: the first header without some attribute makes the search fail; the message names the first attribute that it lacks, and
all packages are freed. The container for the data of a missing tag is not. -/
theorem C128_incomplete (hs : List Header) (ps : List Package) (h : Header) (rest : List Header) (what : Str) (l : Nat)
    (hall : List.Forall₂ Describes hs ps) (hl : Lacks h what l) (w : World) :
    lookup true true (hs ++ h :: rest) w =
      ([], { w with tagData := w.tagData + l, message := some (c!"Failed to find package " ++ what ++ c!".") }) := by
  have hv := loop_values hall (h :: rest) [] { w with sets := w.sets + 1, iterators := w.iterators + 1 }
  simp [lookup, hv, loop, headerToPackage_lacks hl]

example : Lacks ⟨.value c!"bash", .missing, .value c!"5.2", .value c!"1", .value c!"x86_64", .value 7⟩ c!"epoch" 1 :=
  Or.inr (Or.inl ⟨rfl, ⟨_, rfl⟩, Or.inl ⟨rfl, rfl⟩⟩)

/-- C128: these are all cases. -/
theorem C128_cases (found : List Header) :
    (∃ ps, List.Forall₂ Describes found ps) ∨
    ∃ hs ps h rest what l, found = hs ++ h :: rest ∧ List.Forall₂ Describes hs ps ∧ Lacks h what l := by
  induction found with
  | nil => exact Or.inl ⟨[], .nil⟩
  | cons h hs ih =>
    rcases describes_or_lacks h with ⟨p, hp⟩ | ⟨what, l, hl⟩
    · rcases ih with ⟨ps, hps⟩ | ⟨pre, ps, x, rest, what, l, rfl, hall, hl⟩
      · exact Or.inl ⟨p :: ps, .cons hp hps⟩
      · exact Or.inr ⟨h :: pre, p :: ps, x, rest, what, l, rfl, .cons hp hall, hl⟩
    · exact Or.inr ⟨[], [], h, hs, what, l, rfl, .nil, hl⟩

/-- C128: without configuration, or in a build without rpm, there is a message and no package, and nothing is allocated. -/
theorem C128_config (found : List Header) (w : World) :
    lookup true false found w = ([], { w with message := some c!"Failed to read RPM configuration files." }) ∧
    ∀ config, lookup false config found w = ([], { w with message := some c!"satyr compiled without rpm" }) := by
  refine ⟨by simp [lookup], fun c => by simp [lookup]⟩

/-- C128: no package is found exactly if there is none or the search fails; only a failure changes the message. -/
theorem C128_nothing (found : List Header) (w : World) (hw : w.message = none) :
    (lookup true true found w).1 = [] ↔ found = [] ∨ (lookup true true found w).2.message ≠ none := by
  rcases C128_cases found with ⟨ps, hps⟩ | ⟨hs, ps, h, rest, what, l, rfl, hall, hl⟩
  · rw [C128_found_partial found ps hps]
    constructor
    · intro h
      dsimp only at h
      subst h
      exact Or.inl (by cases hps; rfl)
    · rintro (rfl | h)
      · cases hps; rfl
      · exact absurd hw h
  · rw [C128_incomplete hs ps h rest what l hall hl]
    simp

/-- C128 is false in general: a package without an epoch, as most are, hides itself and all other packages that were found, whatever
its other attributes are. -/
theorem C128_not_epoch (hs : List Header) (ps : List Package) (n v r a : Str) (t : Nat) (rest : List Header)
    (hall : List.Forall₂ Describes hs ps) (w : World) :
    lookup true true (hs ++ ⟨.value n, .missing, .value v, .value r, .value a, .value t⟩ :: rest) w =
      ([], { w with tagData := w.tagData + 1, message := some c!"Failed to find package epoch." }) :=
  C128_incomplete hs ps _ rest c!"epoch" 1 hall (Or.inr (Or.inl ⟨rfl, ⟨_, rfl⟩, Or.inl ⟨rfl, rfl⟩⟩)) w

end Satyr.Rpm.Db
