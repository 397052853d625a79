import Verif.Unwind.Props
import Verif.Generic.Load
/-!
# Core dumps of a program that was loaded elsewhere (C142)
-/
namespace Satyr.Unwind
open Satyr.CStr Satyr.Normalize Satyr.Frames Satyr.Generic

/-! ## Specification -/

/-- A module loaded elsewhere: it has the same build id, name and file, and the same symbols at the same distances from its start. -/
def Module.Same (m n : Module) : Prop :=
  m.buildId = n.buildId ∧ m.name = n.name ∧ m.file = n.file ∧ ∀ o, m.symbol (m.start + o) = n.symbol (n.start + o)

/-- Program counters (with the flag that they are one too high) at the same place of a module that is loaded at one address here and at
another one there. The module has a name, and there it has a build id or the place is in a known function. -/
def SamePlace (ms ns : Modules) (p q : Nat × Bool) : Prop :=
  p.2 = q.2 ∧ p.1 < 2 ^ 64 ∧ q.1 < 2 ^ 64 ∧ ∃ m n : Module, m.Same n ∧ m.name ≠ none ∧
    m.start ≤ lookedUp p.1 p.2 ∧ n.start ≤ lookedUp q.1 q.2 ∧ 0 < p.1 ∧ 0 < q.1 ∧
    ms.at' (lookedUp p.1 p.2) = some m ∧ ns.at' (lookedUp q.1 q.2) = some n ∧
    lookedUp p.1 p.2 - m.start = lookedUp q.1 q.2 - n.start ∧
    (m.buildId ≠ [] ∨ m.symbol (lookedUp p.1 p.2) ≠ none)

/-- The threads of two core dumps are at the same places. -/
def SameThread (ms ns : Modules) (t u : Thread) : Prop :=
  t.id = u.id ∧ t.ending = u.ending ∧
    List.Forall₂ (fun p q => (p = none ∧ q = none) ∨ ∃ x y, p = some x ∧ q = some y ∧ SamePlace ms ns x y) t.frames u.frames

/-- Two core dumps of the same crash of a program that was loaded at different addresses. -/
def SameCore (c d : Core) : Prop :=
  c.opens = d.opens ∧ c.attaches = d.attaches ∧ c.ending = d.ending ∧ c.notes = d.notes ∧ c.prstatusSize = d.prstatusSize ∧
    c.modules.demangle = d.modules.demangle ∧ List.Forall₂ (SameThread c.modules d.modules) c.threads d.threads

/-! ## Proof -/

theorem resolve_same {ms ns : Modules} (hd : ms.demangle = ns.demangle) {p q : Nat × Bool} (h : SamePlace ms ns p q) :
    plainCore (resolveFrame ms p.1 p.2) = plainCore (resolveFrame ns q.1 q.2) ∧ Identified (.core (resolveFrame ms p.1 p.2) []) := by
  obtain ⟨pc, b⟩ := p
  obtain ⟨pc', b'⟩ := q
  obtain ⟨e, hp, hq, m, n, ⟨e1, e2, e3, e4⟩, hn, hs, hs', h0, h0', ha, ha', ho, hi⟩ := h
  dsimp only at *
  subst e
  obtain ⟨name, hname⟩ := Option.ne_none_iff_exists'.mp hn
  have k : ∀ x : Nat, 0 < x → x < 2 ^ 64 → minus x (if b then 1 else 0) = lookedUp x b := fun x h1 h2 => adjusted_eq (fun _ => h1) h2
  have l : ∀ x : Nat, 0 < x → lookedUp x b ≤ x ∧ x = lookedUp x b + (if b then 1 else 0) := by
    intro x hx
    unfold lookedUp
    cases b <;> simp; omega
  have l1 := l pc h0
  have l2 := l pc' h0'
  have sym : m.symbol (lookedUp pc b) = n.symbol (lookedUp pc' b) := by
    have := e4 (lookedUp pc b - m.start)
    rwa [Nat.add_sub_cancel' hs, ho, Nat.add_sub_cancel' hs'] at this
  have off : minus pc m.start = minus pc' n.start := by
    rw [minus_eq (by omega) hp, minus_eq (by omega) hq]
    omega
  rw [resolve_some (k pc h0 hp) ha hname, resolve_some (k pc' h0' hq) ha' (e2 ▸ hname)]
  have dem : ∀ s, demangle ms s = demangle ns s := by intro s; unfold demangle; rw [hd]
  constructor
  · unfold plainCore
    dsimp only
    have mk1 : mark pc = 1 := if_neg (by omega)
    have mk2 : mark pc' = 1 := if_neg (by omega)
    rw [mk1, mk2, sym, off, e1, e3]
    simp only [dem]
  · rcases hi with hi | hi
    · exact .inl (by simp [hi])
    · refine .inr (.inl ?_)
      dsimp only
      rw [Ne, Option.map_eq_none_iff]
      exact hi

theorem getFrames_same {ms ns : Modules} (hd : ms.demangle = ns.demangle) {l m : List (Option (Nat × Bool))}
    (h : List.Forall₂ (fun p q => (p = none ∧ q = none) ∨ ∃ x y, p = some x ∧ q = some y ∧ SamePlace ms ns x y) l m) :
    (getFrames ms l).1.map plainCore = (getFrames ns m).1.map plainCore ∧ (getFrames ms l).2 = (getFrames ns m).2 ∧
      ∀ f ∈ (getFrames ms l).1, Identified (.core f []) := by
  induction h with
  | nil => exact ⟨rfl, rfl, fun f hf => by cases hf⟩
  | @cons p q l m hpq _ ih =>
    rcases hpq with ⟨rfl, rfl⟩ | ⟨x, y, rfl, rfl, hxy⟩
    · exact ⟨rfl, rfl, fun f hf => by cases hf⟩
    · obtain ⟨h1, h2⟩ := resolve_same hd hxy
      have hf : (resolveFrame ms x.1 x.2).functionName = (resolveFrame ns y.1 y.2).functionName := by
        have := congrArg CoreFrame.functionName h1
        exact this
      obtain ⟨i1, i2, i3⟩ := ih
      simp only [getFrames, hf]
      split
      · exact ⟨rfl, rfl, fun f hf => by cases hf⟩
      · refine ⟨by simp only [List.map_cons, h1, i1], i2, ?_⟩
        intro f hf
        rcases List.mem_cons.mp hf with rfl | hf
        · exact h2
        · exact i3 f hf

theorem truncate_map : ∀ l : List CoreFrame, (truncate l).map plainCore = truncate (l.map plainCore)
  | [] => rfl
  | f :: l => by
    simp only [List.map_cons, truncate, List.length_cons, List.length_map]
    split
    · exact truncate_map l
    · rfl

theorem truncate_mem : ∀ {l : List CoreFrame} {f : CoreFrame}, f ∈ truncate l → f ∈ l
  | g :: l, f, h => by
    unfold truncate at h
    split at h
    · exact List.mem_cons_of_mem _ (truncate_mem h)
    · exact h

theorem unwindThread_same {ms ns : Modules} (hd : ms.demangle = ns.demangle) {t u : Thread} (h : SameThread ms ns t u) :
    (unwindThread ms t).map plainCoreTh = (unwindThread ns u).map plainCoreTh ∧
      ∀ x, unwindThread ms t = some x → ∀ f ∈ x.frames, Identified (.core f []) := by
  obtain ⟨h1, -, h3⟩ := h
  obtain ⟨f1, f2, f3⟩ := getFrames_same hd h3
  unfold unwindThread
  generalize getFrames ms t.frames = a at *
  generalize getFrames ns u.frames = b at *
  obtain ⟨l, s⟩ := a
  obtain ⟨l', s'⟩ := b
  dsimp only at f1 f2 f3
  subst f2
  cases s with
  | aborted => exact ⟨rfl, fun x hx => by cases hx⟩
  | all =>
    refine ⟨?_, fun x hx => ?_⟩
    · simp only [Option.map_some, plainCoreTh, truncate_map, f1, h1]
    · cases hx
      exact fun f hf => f3 f (truncate_mem hf)
  | stopped =>
    refine ⟨?_, fun x hx => ?_⟩
    · simp only [Option.map_some, plainCoreTh, truncate_map, f1, h1]
    · cases hx
      exact fun f hf => f3 f (truncate_mem hf)

theorem unwindThreads_same {ms ns : Modules} (hd : ms.demangle = ns.demangle) {l m : List Thread}
    (h : List.Forall₂ (SameThread ms ns) l m) :
    (unwindThreads ms l).map (List.map plainCoreTh) = (unwindThreads ns m).map (List.map plainCoreTh) ∧
      ∀ x, unwindThreads ms l = some x → ∀ th ∈ x, ∀ f ∈ th.frames, Identified (.core f []) := by
  induction h with
  | nil => exact ⟨rfl, fun x hx => by cases hx; exact fun th hth => by cases hth⟩
  | @cons t u l m htu _ ih =>
    obtain ⟨h1, h2⟩ := unwindThread_same hd htu
    obtain ⟨i1, i2⟩ := ih
    simp only [unwindThreads]
    generalize unwindThread ms t = a at *
    generalize unwindThread ns u = b at *
    generalize unwindThreads ms l = c at *
    generalize unwindThreads ns m = d at *
    cases a <;> cases b <;> simp only [Option.map_some, Option.map_none, reduceCtorEq, Option.some.injEq] at h1
    · exact ⟨rfl, fun x hx => by cases hx⟩
    · cases c <;> cases d <;> simp only [Option.map_some, Option.map_none, reduceCtorEq, Option.some.injEq] at i1
      · exact ⟨rfl, fun x hx => by cases hx⟩
      · refine ⟨by simp [h1, i1], fun x hx => ?_⟩
        simp only [Option.bind_some, Option.some.injEq] at hx
        subst hx
        intro th hth
        rcases List.mem_cons.mp hth with rfl | hth
        · exact h2 _ rfl
        · exact i2 _ rfl th hth

theorem frames_identified {x : List CoreThread} (h : ∀ th ∈ x, ∀ f ∈ th.frames, Identified (.core f [])) :
    ∀ th ∈ tails Generic.Thread.core x, ∀ f ∈ allFrames th, Identified f := by
  have fr : ∀ l : List CoreFrame, (∀ f ∈ l, Identified (.core f [])) → ∀ f ∈ frameTails Generic.Frame.core l, Identified f := by
    intro l
    induction l with
    | nil => intro _ f hf; cases hf
    | cons g l ih =>
      intro hl f hf
      rcases List.mem_cons.mp hf with rfl | hf
      · exact hl g (List.mem_cons_self ..)
      · exact ih (fun f hf => hl f (List.mem_cons_of_mem _ hf)) f hf
  induction x with
  | nil => intro th hth; cases hth
  | cons t x ih =>
    intro th hth
    rcases List.mem_cons.mp hth with rfl | hth
    · exact fr _ (h t (List.mem_cons_self ..))
    · exact ih (fun th hth => h th (List.mem_cons_of_mem _ hth)) th hth

/-- C142, core dumps: if a program is loaded elsewhere and crashes at the same places, the core dump is read exactly if the other one is,
with an equal stack trace apart from addresses, whose frames can all be identified. -/
theorem C142_core_partial (c d : Core) (h : SameCore c d) (exe : Str) :
    (parseCoredump c exe).2 = (parseCoredump d exe).2 ∧
    (parseCoredump c exe).1.isSome = (parseCoredump d exe).1.isSome ∧
    ∀ t u, (parseCoredump c exe).1 = some t → (parseCoredump d exe).1 = some u → SameCrash (.core t) (.core u) ∧
      CrashIn (.core t) ∧ CrashIn (.core u) ∧ ∀ th ∈ allThreads (.core t), ∀ f ∈ allFrames th, Identified f := by
  obtain ⟨h1, h2, h3, h4, h5, h6, h7⟩ := h
  obtain ⟨i1, i2⟩ := unwindThreads_same h6 h7
  unfold parseCoredump
  rw [← h1, ← h2, ← h3, ← h4, ← h5]
  generalize unwindThreads c.modules c.threads = a at *
  generalize unwindThreads d.modules d.threads = b at *
  by_cases ho : c.opens = false
  · simp [ho]
  rw [if_neg ho, if_neg ho]
  by_cases hat : c.attaches = false
  · simp [hat]
  rw [if_neg hat, if_neg hat]
  cases a <;> cases b <;> simp only [Option.map_some, Option.map_none, reduceCtorEq, Option.some.injEq] at i1
  · simp
  · next a b =>
    dsimp only
    by_cases he : c.ending = .broken
    · simp [he]
    rw [if_neg he, if_neg he]
    refine ⟨rfl, rfl, fun t u ht hu => ?_⟩
    cases ht
    cases hu
    have hnil : a = [] ↔ b = [] := by
      rw [← List.map_eq_nil_iff (f := plainCoreTh), i1, List.map_eq_nil_iff]
    have crash : ∀ x : List CoreThread, ∀ i, (if x = [] then none else some 0) = some i → i < x.length := by
      intro x i hi
      split at hi
      · cases hi
      · next hx => cases hi; exact List.length_pos_of_ne_nil hx
    refine ⟨?_, crash a, crash b, frames_identified (i2 _ rfl)⟩
    simp only [SameCrash, plain, i1, hnil]

/-- C142 from the core dump to the hash: both core dumps give stack traces with the same hashes for duplicates, or none. -/
theorem C142_core_duphash_partial (c d : Core) (h : SameCore c d) (exe : Str) (sha1 : Str → Str) (n : Int) (pre : Option Str)
    (fl : Hash.DupFlags) :
    (parseCoredump d exe).1.map (fun t => (allThreads (.core t)).map fun th => th.duphash sha1 n pre fl) =
      (parseCoredump c exe).1.map fun t => (allThreads (.core t)).map fun th => th.duphash sha1 n pre fl := by
  obtain ⟨-, h2, h3⟩ := C142_core_partial c d h exe
  generalize (parseCoredump c exe).1 = a at *
  generalize (parseCoredump d exe).1 = b at *
  cases a <;> cases b <;> simp only [Option.isSome_some, Option.isSome_none, reduceCtorEq] at h2
  · rfl
  · obtain ⟨k1, -, -, k4⟩ := h3 _ _ rfl rfl
    exact congrArg some (C142_duphash_partial _ _ k1 k4 sha1 n pre fl).1

/-! ### A case, and where it fails -/

def libc (start : Nat) : Module :=
  { start := start, buildId := [0x88, 0xac], name := some c!"libc.so.6", file := some c!"/lib64/libc.so.6"
    symbol := fun a => if start + 16 ≤ a ∧ a < start + 64 then some c!"raise" else none }
def loadedAt (start : Nat) : Modules := { at' := fun a => if start ≤ a ∧ a < start + 4096 then some (libc start) else none }
def dumped (start : Nat) : Core :=
  { modules := loadedAt start, threads := [{ id := 7, frames := [some (start + 20, false), some (start + 100, true)] }] }

/-- A library with two frames, one of them in a known function, loaded anywhere. -/
example (a b : Nat) (ha : 0 < a ∧ a < 2 ^ 63) (hb : 0 < b ∧ b < 2 ^ 63) : SameCore (dumped a) (dumped b) := by
  have same : (libc a).Same (libc b) := by
    refine ⟨rfl, rfl, rfl, fun o => ?_⟩
    simp only [libc]
    have : (a + 16 ≤ a + o ∧ a + o < a + 64) ↔ (b + 16 ≤ b + o ∧ b + o < b + 64) := by omega
    simp only [this]
  have place : ∀ o f, (f = true → 1 ≤ o) → o < 4096 → SamePlace (loadedAt a) (loadedAt b) (a + o, f) (b + o, f) := by
    intro o f ho ho'
    have l : ∀ x, lookedUp (x + o) f = x + (o - if f then 1 else 0) := by
      intro x
      unfold lookedUp
      cases f
      · simp
      · have := ho rfl
        simp
        omega
    have lt : o - (if f then 1 else 0) < 4096 := by omega
    refine ⟨rfl, by dsimp only; omega, by dsimp only; omega, libc a, libc b, same, by simp [libc], ?_, ?_, by dsimp only; omega,
      by dsimp only; omega, ?_, ?_, ?_, .inl (by simp [libc])⟩
    · rw [l]; exact Nat.le_add_right _ _
    · rw [l]; exact Nat.le_add_right _ _
    · rw [l]; exact if_pos ⟨Nat.le_add_right _ _, by omega⟩
    · rw [l]; exact if_pos ⟨Nat.le_add_right _ _, by omega⟩
    · rw [l, l]; simp [libc]
  refine ⟨rfl, rfl, rfl, rfl, rfl, rfl, .cons ⟨rfl, rfl, .cons (.inr ⟨_, _, rfl, rfl, ?_⟩) (.cons (.inr ⟨_, _, rfl, rfl, ?_⟩) .nil)⟩ .nil⟩
  · exact place 20 false (by simp) (by omega)
  · exact place 100 true (by simp) (by omega)

/-- C142 fails for modules without a name: they have a build id, but the frames have the address as the offset, so that the hashes are
different whenever the module is loaded elsewhere. -/
theorem C142_not_unnamed (b : List UInt8) (hb : b ≠ []) (x y : Nat) (hx : x < 2 ^ 64) (hy : y < 2 ^ 64) (hxy : x ≠ y) (sha1 : Str → Str) :
    ∀ ms ns : Modules, ms.at' x = some { start := x, buildId := b } → ns.at' y = some { start := y, buildId := b } →
      (Generic.Thread.core { frames := [resolveFrame ms x false] } []).duphash sha1 0 none { nohash := true, noNormalize := true } ≠
        (Generic.Thread.core { frames := [resolveFrame ns y false] } []).duphash sha1 0 none { nohash := true, noNormalize := true } := by
  intro ms ns h1 h2
  have res : ∀ (ms : Modules) (x : Nat), x < 2 ^ 64 → ms.at' x = some { start := x, buildId := b } →
      Hash.coreDup (resolveFrame ms x false) = bin2hex b ++ c!"+" ++ Hash.hex0x x ++ c!"\n" := by
    intro ms x hx h
    have e : minus x 0 = x := minus_eq (Nat.zero_le _) hx
    simp [resolveFrame, e, h, hb, Hash.coreDup]
  rw [C114_duphash, C114_duphash]
  have d : ∀ f : CoreFrame, Hash.duphash sha1 (toHash (.core { frames := [f] } [])) 0 none { nohash := true, noNormalize := true } =
      .ok (some (c!"Thread\n" ++ Hash.coreDup f)) := by
    intro f
    rfl
  rw [d, d, res ms x hx h1, res ns y hy h2]
  intro e
  have := List.append_cancel_left (Option.some.inj (Out.ok.inj e))
  exact hxy (Hash.hex0x_inj (List.append_cancel_left (List.append_cancel_right this)))

end Satyr.Unwind
