import Verif.Rpm.Model
import Verif.Frames.CmpProps
/-!
# C36 and C37: comparing, sorting and merging packages
-/
namespace Satyr.Rpm
open Satyr.CStr Satyr.Frames

/-! ## Specification -/

/-- What identifies a package. -/
def identity (p : Package) : Option Str × Option Str × Option Str × Nat × Option Str :=
  (p.name, p.version, p.release, p.epoch, p.architecture)

/-- Two records that may describe one package: same name, version, release and epoch, and architectures that are equal
if both are known. -/
def Compatible (p q : Package) : Prop :=
  p.name = q.name ∧ p.version = q.version ∧ p.release = q.release ∧ p.epoch = q.epoch ∧
    (p.architecture = none ∨ q.architecture = none ∨ p.architecture = q.architecture)

instance (p q : Package) : Decidable (Compatible p q) := by unfold Compatible; infer_instance

/-- `q` stands for `p`: it has its identity (a missing architecture may be filled in), and a known role and a known
install time stay known. -/
def Represents (q p : Package) : Prop :=
  q.name = p.name ∧ q.version = p.version ∧ q.release = p.release ∧ q.epoch = p.epoch ∧
    (p.architecture = none ∨ q.architecture = p.architecture) ∧
    (p.role ≠ .unknown → q.role ≠ .unknown) ∧ (p.installTime ≠ 0 → q.installTime ≠ 0)

/-! ## C37 -/

/-- C37: comparing name, version and release is a total order on all packages, equal exactly if the three are. -/
theorem C37_nvr : OrderOn (fun _ => True) cmpNvr (fun p => (p.name, p.version, p.release)) := by
  have h := (order_str (P := fun _ => True) Package.name).lex ((order_str Package.version).lex
    ((order_str Package.release).lex OrderOn.trivial))
  exact h.congrKey (fun a b => by simp)

/-- C37: comparing NEVRA is a total order on packages with epochs below 2^31, equal exactly for equal identities. -/
theorem C37_nevra_partial : OrderOn (fun p => Small p.epoch) cmpNevra identity := by
  have h := (C37_nvr.imp (Q := fun p => Small p.epoch) (fun _ _ => True.intro)).lex
    ((order_num (P := fun p : Package => Small p.epoch) Package.epoch (fun _ h => h)).lex
      ((order_str Package.architecture).lex OrderOn.trivial))
  exact h.congrKey (fun a b => by simp [identity, and_assoc])

/-- C37: for every 32-bit epoch the NEVRA comparison returns 0 exactly for equal identities. -/
theorem C37_nevra_zero (p q : Package) (hp : p.epoch < 2 ^ 32) (hq : q.epoch < 2 ^ 32) :
    cmpNevra p q = 0 ↔ identity p = identity q := by
  unfold cmpNevra identity
  rw [orElse0_eq_zero, orElse0_eq_zero, orElse0_eq_zero, diff32_eq_zero hp hq, strcmp0_eq_zero,
    C37_nvr.zero_iff p q True.intro True.intro]
  simp [and_assoc]

theorem order_consistency : OrderOn (fun _ => True) consistencyCmp (fun c => c) := by
  have h := (order_str (P := fun _ => True) Consistency.path).lex ((order_bool Consistency.ownerChanged).lex
    ((order_bool Consistency.groupChanged).lex ((order_bool Consistency.modeChanged).lex
    ((order_bool Consistency.md5Mismatch).lex ((order_bool Consistency.sizeChanged).lex
    ((order_bool Consistency.majorNumberChanged).lex ((order_bool Consistency.minorNumberChanged).lex
    ((order_bool Consistency.symlinkChanged).lex ((order_bool Consistency.modificationTimeChanged).lex
      OrderOn.trivial)))))))))
  exact h.congrKey (fun a b => by cases a; cases b; simp)

/-- C37: the full comparison is a total order on packages with epochs and install times below 2^31, equal exactly for
packages equal in everything but the role. -/
theorem C37_cmp_partial : OrderOn (fun p => Small p.epoch ∧ Small p.installTime) cmp
    (fun p => (identity p, p.installTime, p.consistency)) := by
  have hl : OrderOn (fun p : Package => Small p.epoch ∧ Small p.installTime)
      (fun p q => listCmp consistencyCmp p.consistency q.consistency) (fun p => p.consistency) := by
    have := (order_consistency.list).comap (P := fun p : Package => Small p.epoch ∧ Small p.installTime)
      Package.consistency (fun _ _ _ _ => True.intro)
    exact this.congrKey (fun a b => by simp)
  have h := (C37_nevra_partial.imp (Q := fun p => Small p.epoch ∧ Small p.installTime) (fun _ h => h.1)).lex
    ((order_num (P := fun p : Package => Small p.epoch ∧ Small p.installTime) Package.installTime (fun _ h => h.2)).lex
      (hl.lex OrderOn.trivial))
  refine order_congr (h.congrKey (l := fun p => (identity p, p.installTime, p.consistency)) (fun a b => by simp)) ?_
  intro a b ha hb
  unfold cmp
  rw [ret64_small ha.2 hb.2]

/-- C37: with full-range epochs the comparison is not antisymmetric. -/
theorem C37_not_epoch : ∃ p q : Package, p.epoch < 2 ^ 32 ∧ q.epoch < 2 ^ 32 ∧ cmpNevra p q < 0 ∧ cmpNevra q p < 0 :=
  ⟨{ epoch := 0 }, { epoch := 2147483648 }, by decide, by decide, by decide +kernel, by decide +kernel⟩

/-- C37: with full-range install times different packages compare as equal. -/
theorem C37_not_install_time : ∃ p q : Package, p.installTime < 2 ^ 64 ∧ q.installTime < 2 ^ 64 ∧ p.installTime ≠ q.installTime ∧
    cmp p q = 0 :=
  ⟨{ installTime := 0 }, { installTime := 4294967296 }, by decide, by decide, by decide, by decide +kernel⟩

example : cmpNevra { name := some c!"a", epoch := 1 } { name := some c!"a", epoch := 2 } < 0 := by decide +kernel
example : cmp { name := some c!"a", installTime := 5 } { name := some c!"a", installTime := 2 } > 0 := by decide +kernel

/-! ## C36: sort -/

/-- C36: sorting a non-empty list of packages with epochs below 2^31 returns the same packages in NEVRA order. -/
theorem C36_sort_partial (qsort : (Package → Package → Int) → List Package → List Package) (ps : List Package)
    (hq : QsortResult cmpNevra ps (qsort cmpNevra ps)) (hne : ps ≠ []) (hs : ∀ p ∈ ps, Small p.epoch) :
    ∃ r, sort qsort ps = .ok r ∧ r.Perm ps ∧ r.Pairwise fun p q => cmpNevra p q ≤ 0 := by
  refine ⟨qsort cmpNevra ps, ?_, hq.1, hq.2 (fun a ha b hb => C37_nevra_partial.1 a b (hs a ha) (hs b hb))
    (fun a ha b hb d hd => C37_nevra_partial.2 a b d (hs a ha) (hs b hb) (hs d hd))⟩
  unfold sort
  split
  · next h => rw [h] at hq; exact absurd (List.nil_perm.1 hq.1) hne
  · rfl

/-- C36: sorting the empty list reads outside of the array, whatever `qsort` is. -/
theorem C36_not_empty (qsort : (Package → Package → Int) → List Package → List Package)
    (hq : QsortResult cmpNevra [] (qsort cmpNevra [])) : sort qsort [] = .ub := by
  unfold sort
  rw [List.perm_nil.1 hq.1]

/-- C36: with full-range epochs there are lists that no sorting can put in order. -/
theorem C36_not_sortable : ∃ ps : List Package, (∀ p ∈ ps, p.epoch < 2 ^ 32) ∧
    ∀ r : List Package, r.Perm ps → ¬ r.Pairwise fun p q => cmpNevra p q ≤ 0 := by
  refine ⟨[{ epoch := 0 }, { epoch := 1610612736 }, { epoch := 3221225472 }], by decide, ?_⟩
  intro r hr hp
  have key : ∀ a ∈ [({ epoch := 0 } : Package), { epoch := 1610612736 }, { epoch := 3221225472 }],
      ∃ b ∈ [({ epoch := 0 } : Package), { epoch := 1610612736 }, { epoch := 3221225472 }], b ≠ a ∧ ¬ cmpNevra a b ≤ 0 := by
    decide +kernel
  cases r with
  | nil => exact absurd hr.length_eq (by decide)
  | cons x t =>
    obtain ⟨b, hb, hne, hgt⟩ := key x (hr.mem_iff.1 (by simp))
    have hb' : b ∈ x :: t := hr.mem_iff.2 hb
    rw [List.mem_cons] at hb'
    rcases hb' with h | h
    · exact hne h
    · exact hgt ((List.pairwise_cons.1 hp).1 b h)

/-! ## C36: uniq -/

theorem merge_none_iff (p q : Package) : merge p q = none ↔ ¬ Compatible p q := by
  have hn : cmpNvr p q = 0 ↔ p.name = q.name ∧ p.version = q.version ∧ p.release = q.release := by
    rw [C37_nvr.zero_iff p q True.intro True.intro]; simp
  unfold merge Compatible
  by_cases h1 : cmpNvr p q = 0
  · rw [if_neg (by simpa using h1)]
    obtain ⟨e1, e2, e3⟩ := hn.1 h1
    by_cases h2 : p.epoch = q.epoch
    · rw [if_neg (by simpa using h2)]
      have ha := strcmp0_eq_zero (a := p.architecture) (b := q.architecture)
      cases hp : p.architecture <;> cases hq : q.architecture <;> rw [hp, hq] at ha <;> simp [e1, e2, e3, h2, ha]
    · rw [if_pos h2]; simp [h2]
  · rw [if_pos h1]
    simp only [true_iff]
    rintro ⟨e1, e2, e3, -⟩
    exact h1 (hn.2 ⟨e1, e2, e3⟩)

theorem merge_some {p q m : Package} (h : merge p q = some m) : Compatible p q ∧
    identity m = (p.name, p.version, p.release, p.epoch, p.architecture.or q.architecture) ∧
    m.installTime = (if p.installTime ≠ 0 then p.installTime else q.installTime) ∧
    m.role = (if p.role ≠ .unknown then p.role else q.role) ∧ m.consistency = [] := by
  have hc : Compatible p q := by
    by_contra hc
    rw [(merge_none_iff p q).2 hc] at h; cases h
  refine ⟨hc, ?_⟩
  unfold merge at h
  split at h
  · cases h
  · split at h
    · cases h
    · split at h
      · cases h
      · cases h; exact ⟨rfl, rfl, rfl, rfl⟩

theorem identity_eq {p q : Package} : identity p = identity q ↔ p.name = q.name ∧ p.version = q.version ∧
    p.release = q.release ∧ p.epoch = q.epoch ∧ p.architecture = q.architecture := by
  simp [identity]

theorem merge_fields {p q m : Package} (h : merge p q = some m) : m.name = p.name ∧ m.version = p.version ∧
    m.release = p.release ∧ m.epoch = p.epoch ∧ m.architecture = p.architecture.or q.architecture := by
  have := (merge_some h).2.1
  simpa [identity] using this

theorem Represents.trans {a b c : Package} (h1 : Represents a b) (h2 : Represents b c) : Represents a c := by
  obtain ⟨a1, a2, a3, a4, a5, a6, a7⟩ := h1
  obtain ⟨b1, b2, b3, b4, b5, b6, b7⟩ := h2
  refine ⟨a1.trans b1, a2.trans b2, a3.trans b3, a4.trans b4, ?_, fun h => a6 (b6 h), fun h => a7 (b7 h)⟩
  rcases b5 with h | h
  · exact Or.inl h
  · rcases a5 with h' | h'
    · exact Or.inl (h ▸ h')
    · exact Or.inr (h'.trans h)

theorem Represents.refl (a : Package) : Represents a a := ⟨rfl, rfl, rfl, rfl, Or.inr rfl, id, id⟩

theorem merge_represents {p q m : Package} (h : merge p q = some m) : Represents m p ∧ Represents m q := by
  obtain ⟨hc, -, ht, hr, -⟩ := merge_some h
  obtain ⟨f1, f2, f3, f4, f5⟩ := merge_fields h
  obtain ⟨c1, c2, c3, c4, c5⟩ := hc
  refine ⟨⟨f1, f2, f3, f4, ?_, ?_, ?_⟩, ⟨f1.trans c1, f2.trans c2, f3.trans c3, f4.trans c4, ?_, ?_, ?_⟩⟩
  · cases hp : p.architecture with
    | none => exact Or.inl rfl
    | some x => right; rw [f5, hp]; rfl
  · intro hp; rw [hr, if_pos hp]; exact hp
  · intro hp; rw [ht, if_pos hp]; exact hp
  · cases hq : q.architecture with
    | none => exact Or.inl rfl
    | some x =>
      right
      rw [f5, hq]
      rcases c5 with h | h | h
      · rw [h]; rfl
      · rw [h] at hq; cases hq
      · rw [h, hq]; rfl
  · intro hq; rw [hr]; split
    · next hp => exact hp
    · exact hq
  · intro hq; rw [ht]; split
    · next hp => exact hp
    · exact hq

theorem uniqLoop_represents (p : Package) (ps : List Package) : ∀ x ∈ p :: ps, ∃ q ∈ uniqLoop p ps, Represents q x := by
  induction ps generalizing p with
  | nil => intro x hx; exact ⟨p, by simp [uniqLoop], by rw [List.mem_singleton.1 hx]; exact Represents.refl p⟩
  | cons n rest ih =>
    intro x hx
    rw [uniqLoop]
    cases hm : merge p n with
    | none =>
      simp only
      rw [List.mem_cons] at hx
      rcases hx with rfl | hx
      · exact ⟨x, by simp, Represents.refl x⟩
      · obtain ⟨q, hq, hr⟩ := ih n x hx
        exact ⟨q, by simp [hq], hr⟩
    | some m =>
      simp only
      obtain ⟨h1, h2⟩ := merge_represents hm
      obtain ⟨q, hq, hr⟩ := ih m m (by simp)
      rw [List.mem_cons, List.mem_cons] at hx
      rcases hx with rfl | rfl | hx
      · exact ⟨q, hq, hr.trans h1⟩
      · exact ⟨q, hq, hr.trans h2⟩
      · exact ih m x (by simp [hx])

theorem merge_identity {p q m : Package} (h : merge p q = some m) : identity m = identity p ∨ identity m = identity q := by
  obtain ⟨f1, f2, f3, f4, f5⟩ := merge_fields h
  obtain ⟨c1, c2, c3, c4, c5⟩ := (merge_some h).1
  cases hp : p.architecture with
  | none => right; rw [identity_eq]; rw [hp] at f5; exact ⟨f1.trans c1, f2.trans c2, f3.trans c3, f4.trans c4, f5⟩
  | some x => left; rw [identity_eq]; rw [hp] at f5; exact ⟨f1, f2, f3, f4, f5.trans hp.symm⟩

theorem uniqLoop_from (p : Package) (ps : List Package) : ∀ q ∈ uniqLoop p ps, ∃ x ∈ p :: ps, identity q = identity x := by
  induction ps generalizing p with
  | nil => intro q hq; exact ⟨q, by simpa [uniqLoop] using hq, rfl⟩
  | cons n rest ih =>
    intro q hq
    rw [uniqLoop] at hq
    cases hm : merge p n with
    | none =>
      rw [hm] at hq
      simp only [List.mem_cons] at hq
      rcases hq with rfl | hq
      · exact ⟨q, by simp, rfl⟩
      · obtain ⟨x, hx, he⟩ := ih n q hq
        exact ⟨x, List.mem_cons_of_mem _ hx, he⟩
    | some m =>
      rw [hm] at hq
      simp only at hq
      obtain ⟨x, hx, he⟩ := ih m q hq
      rw [List.mem_cons] at hx
      rcases hx with rfl | hx
      · rcases merge_identity hm with h | h
        · exact ⟨p, by simp, he.trans h⟩
        · exact ⟨n, by simp, he.trans h⟩
      · exact ⟨x, by simp [hx], he⟩

/-- No two neighbours are compatible. -/
def NoCompatibleNeighbours (l : List Package) : Prop := ∀ i p q, l[i]? = some p → l[i + 1]? = some q → ¬ Compatible p q

theorem noCompatibleNeighbours_cons {a : Package} {l : List Package} (h : NoCompatibleNeighbours l)
    (ha : ∀ b, l.head? = some b → ¬ Compatible a b) : NoCompatibleNeighbours (a :: l) := by
  intro i p q hp hq
  cases i with
  | zero =>
    cases hp
    apply ha
    rw [List.getElem?_cons_succ] at hq
    rw [List.head?_eq_getElem?]; exact hq
  | succ i => exact h i p q (by simpa using hp) (by simpa using hq)

/-- What is not compatible with the first package of the input is not compatible with the first one of the output. -/
theorem uniqLoop_head (p : Package) (ps : List Package) (a b : Package) (ha : ¬ Compatible a p)
    (hb : (uniqLoop p ps).head? = some b) : ¬ Compatible a b := by
  induction ps generalizing p with
  | nil => rw [uniqLoop] at hb; cases hb; exact ha
  | cons n rest ih =>
    rw [uniqLoop] at hb
    cases hm : merge p n with
    | none => rw [hm] at hb; cases hb; exact ha
    | some m =>
      rw [hm] at hb
      refine ih m ?_ hb
      obtain ⟨f1, f2, f3, f4, f5⟩ := merge_fields hm
      rintro ⟨c1, c2, c3, c4, c5⟩
      apply ha
      refine ⟨c1.trans f1, c2.trans f2, c3.trans f3, c4.trans f4, ?_⟩
      rw [f5] at c5
      cases hp : p.architecture with
      | none => exact Or.inr (Or.inl rfl)
      | some x =>
        rw [hp] at c5
        rcases c5 with h | h | h
        · exact Or.inl h
        · cases h
        · exact Or.inr (Or.inr h)

theorem uniqLoop_neighbours (p : Package) (ps : List Package) : NoCompatibleNeighbours (uniqLoop p ps) := by
  induction ps generalizing p with
  | nil => intro i a b ha hb; simp [uniqLoop] at hb
  | cons n rest ih =>
    rw [uniqLoop]
    cases hm : merge p n with
    | none => exact noCompatibleNeighbours_cons (ih n) (fun b hb => uniqLoop_head n rest p b ((merge_none_iff p n).1 hm) hb)
    | some m => exact ih m

/-- C36: merging leaves no two neighbouring packages that could be one, loses no package and invents none. This holds for
any list. -/
theorem C36_uniq (ps : List Package) :
    NoCompatibleNeighbours (uniq ps) ∧ (∀ p ∈ ps, ∃ q ∈ uniq ps, Represents q p) ∧
    (∀ q ∈ uniq ps, ∃ p ∈ ps, identity q = identity p) := by
  cases ps with
  | nil => exact ⟨fun i p q hp => by simp [uniq] at hp, by simp, by simp [uniq]⟩
  | cons p ps => exact ⟨uniqLoop_neighbours p ps, uniqLoop_represents p ps, uniqLoop_from p ps⟩

/-- C36: merging a list without compatible neighbours changes nothing. -/
theorem C36_uniq_id (ps : List Package) (h : NoCompatibleNeighbours ps) : uniq ps = ps := by
  cases ps with
  | nil => rfl
  | cons p ps =>
    rw [uniq]
    induction ps generalizing p with
    | nil => rfl
    | cons n rest ih =>
      rw [uniqLoop, (merge_none_iff p n).2 (h 0 p n rfl rfl)]
      simp only
      rw [ih n (fun i a b ha hb => h (i + 1) a b (by simpa using ha) (by simpa using hb))]

/-- C36: merging twice is merging once. -/
theorem C36_uniq_idempotent (ps : List Package) : uniq (uniq ps) = uniq ps := C36_uniq_id _ (C36_uniq ps).1

theorem cmpNevra_congr {p p' q q' : Package} (hp : identity p = identity p') (hq : identity q = identity q') :
    cmpNevra p q = cmpNevra p' q' := by
  rw [identity_eq] at hp hq
  obtain ⟨p1, p2, p3, p4, p5⟩ := hp
  obtain ⟨q1, q2, q3, q4, q5⟩ := hq
  unfold cmpNevra cmpNvr
  rw [p1, p2, p3, p4, p5, q1, q2, q3, q4, q5]

theorem cmpNevra_same {p q : Package} (h1 : p.name = q.name) (h2 : p.version = q.version) (h3 : p.release = q.release)
    (h4 : p.epoch = q.epoch) : cmpNevra p q = strcmp0 p.architecture q.architecture := by
  have hn : cmpNvr p q = 0 := (C37_nvr.zero_iff p q True.intro True.intro).2 (by rw [h1, h2, h3])
  have he : diff32 p.epoch q.epoch = 0 := by rw [h4]; unfold diff32 wrap32; omega
  unfold cmpNevra
  rw [hn, he]
  unfold orElse0
  by_cases h : strcmp0 p.architecture q.architecture = 0 <;> simp [h]

/-- In a sorted list, merging two neighbours gives the identity of the second. -/
theorem merge_sorted {p q m : Package} (hm : merge p q = some m) (hle : cmpNevra p q ≤ 0) : identity m = identity q := by
  obtain ⟨f1, f2, f3, f4, f5⟩ := merge_fields hm
  obtain ⟨c1, c2, c3, c4, c5⟩ := (merge_some hm).1
  rw [cmpNevra_same c1 c2 c3 c4] at hle
  rw [identity_eq]
  refine ⟨f1.trans c1, f2.trans c2, f3.trans c3, f4.trans c4, ?_⟩
  rw [f5]
  cases hp : p.architecture with
  | none => rfl
  | some x =>
    rcases c5 with h | h | h
    · rw [hp] at h; cases h
    · rw [hp, h] at hle; simp [strcmp0] at hle
    · rw [← h, hp]; rfl

theorem uniqLoop_sorted (p : Package) (ps : List Package) (h : (p :: ps).Pairwise fun p q => cmpNevra p q ≤ 0) :
    (uniqLoop p ps).Pairwise fun p q => cmpNevra p q ≤ 0 := by
  induction ps generalizing p with
  | nil => simp [uniqLoop]
  | cons n rest ih =>
    rw [List.pairwise_cons] at h
    rw [uniqLoop]
    cases hm : merge p n with
    | none =>
      simp only
      rw [List.pairwise_cons]
      refine ⟨fun q hq => ?_, ih n h.2⟩
      obtain ⟨x, hx, he⟩ := uniqLoop_from n rest q hq
      rw [cmpNevra_congr rfl he]
      exact h.1 x hx
    | some m =>
      simp only
      apply ih
      have hi := merge_sorted hm (h.1 n (by simp))
      rw [List.pairwise_cons]
      refine ⟨fun q hq => ?_, (List.pairwise_cons.1 h.2).2⟩
      rw [cmpNevra_congr hi rfl]
      exact (List.pairwise_cons.1 h.2).1 q hq

/-- In a sorted list without compatible neighbours no two packages are compatible. -/
theorem pairwise_of_neighbours (l : List Package) (hs : ∀ p ∈ l, Small p.epoch) (h : l.Pairwise fun p q => cmpNevra p q ≤ 0)
    (hn : NoCompatibleNeighbours l) : l.Pairwise fun p q => ¬ Compatible p q := by
  induction l with
  | nil => simp
  | cons a l ih =>
    rw [List.pairwise_cons] at h ⊢
    refine ⟨?_, ih (fun p hp => hs p (by simp [hp])) h.2 (fun i p q hp hq => hn (i + 1) p q (by simpa using hp) (by simpa using hq))⟩
    cases l with
    | nil => simp
    | cons b l =>
      have hab := hn 0 a b rfl rfl
      intro q hq hc
      rw [List.mem_cons] at hq
      rcases hq with rfl | hq
      · exact hab hc
      · have hle1 := h.1 b (by simp)
        have hle2 := (List.pairwise_cons.1 h.2).1 q hq
        obtain ⟨c1, c2, c3, c4, c5⟩ := hc
        have sa := hs a (by simp)
        have sb := hs b (by simp)
        have sq := hs q (by simp [hq])
        -- `b` lies between `a` and `q`, so it has the same name, version, release and epoch
        have key : OrderOn (fun p => Small p.epoch)
            (fun p q : Package => orElse0 (cmpNvr p q) (diff32 p.epoch q.epoch)) (fun p => ((p.name, p.version, p.release), p.epoch)) :=
          (C37_nvr.imp (fun _ _ => True.intro)).lex (order_num Package.epoch (fun _ h => h))
        have drop : ∀ x y : Package, cmpNevra x y ≤ 0 → orElse0 (cmpNvr x y) (diff32 x.epoch y.epoch) ≤ 0 := by
          intro x y hxy
          unfold cmpNevra at hxy
          unfold orElse0 at hxy ⊢
          by_cases h1 : cmpNvr x y = 0
          · simp only [h1, ne_eq, not_true_eq_false, if_false] at hxy ⊢
            by_cases h2 : diff32 x.epoch y.epoch = 0
            · omega
            · simpa [h2] using hxy
          · simpa [h1] using hxy
        have k1 := drop a b hle1
        have k2 := drop b q hle2
        have k3 : orElse0 (cmpNvr q a) (diff32 q.epoch a.epoch) = 0 := (key.3 q a sq sa).2 (by rw [c1, c2, c3, c4])
        have k4 := key.2 b q a sb sq sa k2 (by omega)
        have k5 : orElse0 (cmpNvr a b) (diff32 a.epoch b.epoch) = 0 := by
          have := (key.le_swap sa sb).1 k4
          omega
        have k6 := (key.3 a b sa sb).1 k5
        simp only [Prod.mk.injEq] at k6
        obtain ⟨⟨e1, e2, e3⟩, e4⟩ := k6
        apply hab
        refine ⟨e1, e2, e3, e4, ?_⟩
        rw [cmpNevra_same e1 e2 e3 e4] at hle1
        rw [cmpNevra_same (e1.symm.trans c1) (e2.symm.trans c2) (e3.symm.trans c3) (e4.symm.trans c4)] at hle2
        rcases c5 with h | h | h
        · exact Or.inl h
        · rw [h] at hle2
          cases hb : b.architecture with
          | none => exact Or.inr (Or.inl rfl)
          | some x => rw [hb] at hle2; simp [strcmp0] at hle2
        · rw [← h] at hle2
          right; right
          have := (order_strcmp0.le_swap (a := a.architecture) (b := b.architecture) True.intro True.intro).1 hle2
          exact (order_strcmp0.3 _ _ True.intro True.intro).1 (by omega)

/-- C36: after sorting and merging (epochs below 2^31), no two packages at all could be one, and the list is still
sorted. -/
theorem C36_sort_uniq_partial (qsort : (Package → Package → Int) → List Package → List Package) (ps : List Package)
    (hq : QsortResult cmpNevra ps (qsort cmpNevra ps)) (hne : ps ≠ []) (hs : ∀ p ∈ ps, Small p.epoch) :
    ∃ r, (sort qsort ps >>= fun s => .ok (uniq s)) = .ok r ∧ r.Pairwise (fun p q => ¬ Compatible p q) ∧
      r.Pairwise (fun p q => cmpNevra p q ≤ 0) ∧ (∀ p ∈ ps, ∃ q ∈ r, Represents q p) ∧
      (∀ q ∈ r, ∃ p ∈ ps, identity q = identity p) := by
  obtain ⟨s, h1, h2, h3⟩ := C36_sort_partial qsort ps hq hne hs
  refine ⟨uniq s, by rw [h1]; rfl, ?_⟩
  have h4 := C36_uniq s
  have hsorted : (uniq s).Pairwise fun p q => cmpNevra p q ≤ 0 := by
    cases s with
    | nil => simp [uniq]
    | cons a s => exact uniqLoop_sorted a s h3
  have hsmall : ∀ q ∈ uniq s, Small q.epoch := by
    intro q hq
    obtain ⟨p, hp, he⟩ := h4.2.2 q hq
    rw [(identity_eq.1 he).2.2.2.1]
    exact hs p (h2.mem_iff.1 hp)
  refine ⟨pairwise_of_neighbours _ hsmall hsorted h4.1, hsorted, fun p hp => h4.2.1 p (h2.mem_iff.2 hp), fun q hq => ?_⟩
  obtain ⟨p, hp, he⟩ := h4.2.2 q hq
  exact ⟨p, h2.mem_iff.1 hp, he⟩

/-- An unsorted list with two records of one package. -/
def samplePackages : List Package :=
  [{ name := some c!"b", version := some c!"1", release := some c!"2", architecture := some c!"i686", installTime := 7 },
   { name := some c!"a", version := some c!"1", release := some c!"2", architecture := some c!"i686" },
   { name := some c!"b", version := some c!"1", release := some c!"2", role := .affected }]

/-- A possible result of `qsort` on it. -/
def sampleQsort (_ : Package → Package → Int) (l : List Package) : List Package :=
  match l with
  | [x, y, z] => [y, z, x]
  | l => l

example : QsortResult cmpNevra samplePackages (sampleQsort cmpNevra samplePackages) :=
  ⟨by decide +kernel, fun _ _ => by decide +kernel⟩
example : samplePackages ≠ [] ∧ ∀ p ∈ samplePackages, Small p.epoch := ⟨by decide, by decide⟩
example : (sort sampleQsort samplePackages >>= fun s => .ok (uniq s)) = .ok
    [{ name := some c!"a", version := some c!"1", release := some c!"2", architecture := some c!"i686" },
     { name := some c!"b", version := some c!"1", release := some c!"2", architecture := some c!"i686", installTime := 7,
       role := .affected }] := by decide +kernel

end Satyr.Rpm
