import Verif.Py.Metrics
import Verif.Py.ListsProps
import Verif.Distances.Props
import Verif.Cluster.Props
import Verif.Cluster.Cut
import Mathlib.Data.List.Forall2
/-!
# Properties of the Python classes `Distances`, `DistancesPart` and `Dendrogram`
-/
namespace Satyr.Py
open Satyr.Distances

/-! ## Specification -/

/-- The indices of a matrix of the given size. -/
def Valid (size : Int × Int) (i j : Int) : Prop := 0 ≤ i ∧ i < size.1 ∧ 0 ≤ j ∧ j < size.2

instance (size i j) : Decidable (Valid size i j) := by unfold Valid; infer_instance

/-- The value that was assigned last to the pair of `i` and `j`; assignments to invalid indices do not count. -/
def lastAssigned {α : Type} (size : Int × Int) : List (Int × Int × α) → Int → Int → Option α
  | [], _, _ => none
  | (a, b, v) :: rest, i, j =>
    match lastAssigned size rest i j with
    | some w => some w
    | none => if Valid size a b ∧ ((a = i ∧ b = j) ∨ (a = j ∧ b = i)) then some v else none

/-- A history of calls of `set_distance`; the matrix is the same after an exception. -/
def assignAll {α : Type} : Matrix α → List (Int × Int × α) → Out (Matrix α)
  | d, [] => .ok d
  | d, (i, j, v) :: ops => (setDistance d i j v).bind fun r => assignAll (r.getD d) ops

/-! ## Lemmas -/

theorem intArg_of {z : Int} (h : -2147483648 ≤ z ∧ z ≤ 2147483647) : intArg z = some z := if_pos h

theorem intArg_some {z w : Int} (h : intArg z = some w) : w = z ∧ -2147483648 ≤ z ∧ z ≤ 2147483647 := by
  unfold intArg at h
  split at h
  · next h' => exact ⟨(Option.some.inj h).symm, h'⟩
  · simp at h

/-- The size fits into `int`. -/
def Small {α : Type} (d : Matrix α) : Prop := d.m ≤ 2147483647 ∧ d.n ≤ 2147483647

theorem indices_eq {α : Type} {d : Matrix α} (hs : Small d) (i j : Int) :
    indices d i j = if Valid (getSize d) i j then some (i.toNat, j.toNat) else none := by
  obtain ⟨h1, h2⟩ := hs
  unfold indices
  by_cases h : Valid (getSize d) i j
  · rw [if_pos h]
    simp only [Valid, getSize] at h
    rw [intArg_of (by omega), intArg_of (by omega)]
    dsimp only
    rw [if_neg (by omega)]
  · rw [if_neg h]
    simp only [Valid, getSize] at h
    split
    · next i' j' hi hj =>
      obtain ⟨rfl, -⟩ := intArg_some hi
      obtain ⟨rfl, -⟩ := intArg_some hj
      rw [if_pos (by omega)]
    · rfl

/-- The accepted assignments. -/
def accepted {α : Type} (size : Int × Int) (ops : List (Int × Int × α)) : List (Nat × Nat × α) :=
  ops.filterMap fun op => if Valid size op.1 op.2.1 then some (op.1.toNat, op.2.1.toNat, op.2.2) else none

theorem accepted_ok {α : Type} {d : Matrix α} (w : Distances.WF d) {ops : List (Int × Int × α)} :
    ∀ op ∈ accepted (getSize d) ops, op.1 = op.2.1 ∨ InRange d.m d.n op.1 op.2.1 := by
  intro op hop
  obtain ⟨⟨i, j, v⟩, -, h⟩ := List.mem_filterMap.1 hop
  dsimp only at h
  split at h
  · next hv =>
    obtain ⟨v1, v2, v3, v4⟩ := hv
    simp only [getSize] at v2 v4
    cases h
    dsimp only
    by_cases e : i.toNat = j.toNat
    · exact .inl e
    · have := w.mlt
      refine .inr ⟨e, ?_, ?_⟩ <;> omega
  · simp at h

theorem assignAll_eq {α : Type} (ops : List (Int × Int × α)) : ∀ (d : Matrix α), Distances.WF d → Small d →
    assignAll d ops = runSets d (accepted (getSize d) ops) := by
  induction ops with
  | nil => intro d _ _; rfl
  | cons op ops ih =>
    intro d w hs
    obtain ⟨i, j, v⟩ := op
    rw [assignAll, setDistance, indices_eq hs]
    by_cases hv : Valid (getSize d) i j
    · have hacc : accepted (getSize d) ((i, j, v) :: ops) = (i.toNat, j.toNat, v) :: accepted (getSize d) ops := by
        simp [accepted, hv]
      rw [if_pos hv, hacc]
      dsimp only
      obtain ⟨d', e, w', hm, hn, -⟩ := runSets_slots w [(i.toNat, j.toNat, v)] (fun op hop => by
        refine accepted_ok w (ops := [(i, j, v)]) op ?_
        simpa [accepted, hv] using hop)
      have e' : Distances.set d i.toNat j.toNat v = .ok d' := by
        rw [runSets, List.foldlM_cons] at e
        cases hx : Distances.set d i.toNat j.toNat v with
        | ok x => rw [hx] at e; exact congrArg Out.ok (Out.ok.inj e)
        | abort => rw [hx] at e; simp at e
        | ub => rw [hx] at e; simp at e
      have hsz : getSize d' = getSize d := by simp [getSize, hm, hn]
      rw [runSets, List.foldlM_cons, e']
      simp only [Out.bind_ok]
      have h2 := ih d' w' (by unfold Small; rw [hm, hn]; exact hs)
      rw [hsz] at h2
      exact h2
    · have hacc : accepted (getSize d) ((i, j, v) :: ops) = accepted (getSize d) ops := by
        simp [accepted, hv]
      rw [if_neg hv, hacc]
      exact ih d w hs

theorem lastSet_accepted {α : Type} {size : Int × Int} {i j : Int} (hv : Valid size i j) : ∀ ops : List (Int × Int × α),
    lastSet (accepted size ops) i.toNat j.toNat = lastAssigned size ops i j := by
  intro ops
  induction ops with
  | nil => rfl
  | cons op ops ih =>
    obtain ⟨a, b, v⟩ := op
    rw [lastAssigned]
    by_cases h : Valid size a b
    · have hacc : accepted size ((a, b, v) :: ops) = (a.toNat, b.toNat, v) :: accepted size ops := by
        simp [accepted, h]
      rw [hacc, lastSet, ih]
      have : ((a.toNat = i.toNat ∧ b.toNat = j.toNat) ∨ (a.toNat = j.toNat ∧ b.toNat = i.toNat)) ↔
          (Valid size a b ∧ ((a = i ∧ b = j) ∨ (a = j ∧ b = i))) := by
        obtain ⟨h1, -, h2, -⟩ := id h
        obtain ⟨v1, -, v2, -⟩ := id hv
        simp only [h, true_and]
        omega
      simp only [this]
      cases lastAssigned size ops i j <;> rfl
    · have hacc : accepted size ((a, b, v) :: ops) = accepted size ops := by
        simp [accepted, h]
      rw [hacc, ih]
      cases lastAssigned size ops i j with
      | some w => rfl
      | none => simp [h]

theorem distancesOfSize_some {α : Type} {m n : Int} {d : Matrix α} (h : distancesOfSize α m n = .ok (some d)) :
    new α m n = .ok d ∧ 1 ≤ m ∧ m ≤ 2147483647 ∧ 2 ≤ n ∧ n ≤ 2147483647 := by
  unfold distancesOfSize at h
  split at h
  · next m' n' hm hn =>
    obtain ⟨rfl, -, h1⟩ := intArg_some hm
    obtain ⟨rfl, -, h2⟩ := intArg_some hn
    split at h
    · simp at h
    · next h3 =>
      rcases hd : new α m' n' with d' | _ | _
      · rw [hd] at h
        have : d' = d := by injection h with h; injection h
        subst this
        exact ⟨rfl, by omega, h1, by omega, h2⟩
      · rw [hd] at h; cases h
      · rw [hd] at h; cases h
  · simp at h

/-! ## C108: matrices of distances in Python -/

/-- **C108.** `Distances(m, n)` gives a matrix exactly if `m` is at least 1, `n` at least 2, and both fit into `int`; it raises an
exception otherwise. The size is `(min(m, n - 1), n)`. -/
theorem C108_new (α : Type) (m n : Int) :
    ((1 ≤ m ∧ m ≤ 2147483647 ∧ 2 ≤ n ∧ n ≤ 2147483647) ∧
      ∃ d, distancesOfSize α m n = .ok (some d) ∧ getSize d = (min m (n - 1), n)) ∨
    (¬ (1 ≤ m ∧ m ≤ 2147483647 ∧ 2 ≤ n ∧ n ≤ 2147483647) ∧ distancesOfSize α m n = .ok none) := by
  by_cases h : 1 ≤ m ∧ m ≤ 2147483647 ∧ 2 ≤ n ∧ n ≤ 2147483647
  · refine .inl ⟨h, ?_⟩
    obtain ⟨d, hd, h1, h2⟩ := (C01_new_iff α m n).2 ⟨by omega, by omega⟩
    refine ⟨d, ?_, by simp [getSize, h1, h2]⟩
    unfold distancesOfSize
    rw [intArg_of (by omega), intArg_of (by omega)]
    dsimp only
    rw [if_neg (by omega), hd]
    rfl
  · refine .inr ⟨h, ?_⟩
    unfold distancesOfSize
    split
    · next m' n' hm hn =>
      obtain ⟨rfl, -, h1⟩ := intArg_some hm
      obtain ⟨rfl, -, h2⟩ := intArg_some hn
      rw [if_pos (by omega)]
    · rfl

/-- **C108.** After any history of assignments, valid ones and such with invalid indices, `get_distance` raises an exception for
invalid indices, gives zero for equal ones, and otherwise the value that was assigned last. Missing: pairs to which nothing was
assigned. -/
theorem C108_history_partial {α : Type} (zero : α) (m n : Int) (d : Matrix α) (h : distancesOfSize α m n = .ok (some d))
    (ops : List (Int × Int × α)) :
    ∃ d', assignAll d ops = .ok d' ∧ getSize d' = getSize d ∧ dupDistances d' = .ok d' ∧ ∀ i j : Int,
      getDistance zero d' i j =
        if Valid (getSize d) i j then
          if i = j then .ok (some zero)
          else match lastAssigned (getSize d) ops i j with
            | some v => .ok (some v)
            | none => .ub
        else .ok none := by
  obtain ⟨hd, h1, h2, h3, h4⟩ := distancesOfSize_some h
  obtain ⟨w, hm, hn, -⟩ := new_ok hd
  have hs : Small d := by unfold Small; omega
  obtain ⟨d', e, hg⟩ := C01_get_after_history zero hd (accepted (getSize d) ops) (accepted_ok w)
  obtain ⟨d'', e', -, hm', hn', -⟩ := runSets_slots w (accepted (getSize d) ops) (accepted_ok w)
  rw [e] at e'
  injection e' with e'
  subst e'
  have hsz : getSize d' = getSize d := by simp [getSize, hm', hn']
  refine ⟨d', by rw [assignAll_eq ops d w hs, e], hsz, C01_dup hd _ (accepted_ok w) e, fun i j => ?_⟩
  rw [getDistance, indices_eq (by unfold Small; rw [hm', hn']; exact hs), hsz]
  by_cases hv : Valid (getSize d) i j
  · rw [if_pos hv, if_pos hv]
    dsimp only
    rw [hg, ← lastSet_accepted hv]
    obtain ⟨v1, v2, v3, v4⟩ := hv
    simp only [getSize] at v2 v4
    by_cases hij : i = j
    · subst hij
      rw [if_pos rfl, if_pos rfl]
      rfl
    · rw [if_neg (by omega), if_neg hij, if_pos ⟨by omega, by omega, by omega⟩]
      cases lastSet (accepted (getSize d) ops) i.toNat j.toNat <;> rfl
  · rw [if_neg hv, if_neg hv]

example : ∃ d d', distancesOfSize Nat 2 3 = .ok (some d) ∧ assignAll d [(0, 1, 5), (1, 2, 6), (1, 0, 7), (2, 1, 8), (-1, 0, 9)] = .ok d' ∧
    getDistance 0 d' 0 1 = .ok (some 7) ∧ getDistance 0 d' 1 2 = .ok (some 6) ∧ getDistance 0 d' 2 1 = .ok none :=
  ⟨_, _, rfl, rfl, by decide, by decide, by decide⟩

/-- What is missing in C108: the distance of a pair to which nothing was assigned is uninitialised memory. -/
theorem C108_not_unset : ∃ d, distancesOfSize Nat 1 2 = .ok (some d) ∧ getDistance 0 d 0 1 = .ub := ⟨_, rfl, rfl⟩

/-- The matrix is not symmetric for the user: the distance of two objects may be available only in one order. -/
theorem C108_not_symmetric : ∃ d d', distancesOfSize Nat 1 3 = .ok (some d) ∧ assignAll d [(0, 2, 5)] = .ok d' ∧
    getDistance 0 d' 0 2 = .ok (some 5) ∧ getDistance 0 d' 2 0 = .ok none := ⟨_, _, rfl, rfl, by decide, by decide⟩

/-! ## C109: matrices for lists of threads -/

/-- A list of Python objects that are threads of the same type with right lists of frames. -/
def Threads {T : Type} (typeOf : T → Nat) (framesOk : T → Bool) (items : List (Option T)) (ts : List T) : Prop :=
  items = ts.map some ∧ (∀ a ∈ ts, framesOk a = true) ∧ ∀ a ∈ ts, ∀ b ∈ ts, typeOf a = typeOf b

theorem prepareArray_spec {T : Type} (typeOf : T → Nat) (framesOk : T → Bool) : ∀ (items : List (Option T)) (prev : Option Nat),
    (∀ ts, prepareArray typeOf framesOk items prev = some ts ↔
      Threads typeOf framesOk items ts ∧ ∀ k, prev = some k → ∀ a ∈ ts, typeOf a = k)
  | [], prev, ts => by
    rw [prepareArray]
    constructor
    · intro h; cases h; exact ⟨⟨rfl, by simp, by simp⟩, by simp⟩
    · rintro ⟨⟨h, -, -⟩, -⟩
      rw [List.map_eq_nil_iff.1 h.symm]
  | none :: items, prev, ts => by
    rw [prepareArray]
    constructor
    · simp
    · rintro ⟨⟨h, -, -⟩, -⟩
      cases ts <;> simp at h
  | some t :: items, prev, ts => by
    rw [prepareArray]
    constructor
    · intro h
      split at h
      · simp at h
      next h1 =>
      split at h
      · simp at h
      next h2 =>
      split at h
      · simp at h
      next ts' h3 =>
      cases h
      obtain ⟨⟨e, f, g⟩, k⟩ := (prepareArray_spec typeOf framesOk items _ ts').1 h3
      have k' := k _ rfl
      refine ⟨⟨by rw [e]; rfl, ?_, ?_⟩, ?_⟩
      · intro a ha
        rcases List.mem_cons.1 ha with rfl | ha
        · simpa using h2
        · exact f a ha
      · intro a ha b hb
        have hx : ∀ c ∈ t :: ts', typeOf c = typeOf t := fun c hc => by
          rcases List.mem_cons.1 hc with rfl | hc
          · rfl
          · exact k' c hc
        rw [hx a ha, hx b hb]
      · intro q hq a ha
        have hx : ∀ c ∈ t :: ts', typeOf c = typeOf t := fun c hc => by
          rcases List.mem_cons.1 hc with rfl | hc
          · rfl
          · exact k' c hc
        rw [hx a ha]
        subst hq
        by_contra h
        exact h1 ⟨by simp, fun e => h (Option.some.inj e).symm⟩
    · rintro ⟨⟨e, f, g⟩, k⟩
      cases ts with
      | nil => simp at e
      | cons t' ts =>
        rw [List.map_cons, List.cons.injEq, Option.some.injEq] at e
        obtain ⟨rfl, e⟩ := e
        rw [if_neg, if_neg (by simp [f t (by simp)])]
        · have h3 := (prepareArray_spec typeOf framesOk items (some (typeOf t)) ts).2
            ⟨⟨e, fun a ha => f a (by simp [ha]), fun a ha b hb => g a (by simp [ha]) b (by simp [hb])⟩,
              fun q hq a ha => by cases hq; exact g a (by simp [ha]) t (by simp)⟩
          rw [h3]
        · rintro ⟨h1, h2⟩
          cases prev with
          | none => exact h1 rfl
          | some q => exact h2 (by rw [k q rfl t (by simp)])

theorem sameType_of {T : Type} (typeOf : T → Nat) : ∀ l : List T, (∀ a ∈ l, ∀ b ∈ l, typeOf a = typeOf b) → sameType typeOf l = true
  | [], _ => rfl
  | [_], _ => rfl
  | a :: b :: l, h => by
    rw [sameType, sameType_of typeOf (b :: l) fun x hx y hy => h x (List.mem_cons_of_mem _ hx) y (List.mem_cons_of_mem _ hy),
      h a (by simp) b (by simp)]
    simp

/-- The distance types that are metrics. -/
def metric : Int → Option DistType
  | 1 => some .jaccard
  | 2 => some .levenshtein
  | 3 => some .damerauLevenshtein
  | _ => none

theorem validate_eq (m n t : Int) : validate m n t = if 1 ≤ m ∧ 2 ≤ n then metric t else none := by
  unfold validate
  by_cases h : 1 ≤ m ∧ 2 ≤ n
  · rw [if_neg (by omega), if_pos h]
    unfold distTypeOf
    by_cases h0 : t = 0
    · subst h0; rfl
    by_cases h1 : t = 1
    · subst h1; rfl
    by_cases h2 : t = 2
    · subst h2; rfl
    by_cases h3 : t = 3
    · subst h3; rfl
    rw [if_neg h0, if_neg h1, if_neg h2, if_neg h3, metric] <;> simpa
  · rw [if_pos (by omega), if_neg h]

theorem metric_range {t : Int} {ty : DistType} (h : metric t = some ty) : 1 ≤ t ∧ t ≤ 3 ∧ distTypeOf t = some ty ∧ distTypeNumber ty = t := by
  unfold metric at h
  split at h <;> cases h <;> decide

/-- `Distances(threads, m, dist_type)`, if the arguments are right. -/
theorem ofThreads_eq {α T : Type} (dist : DistType → T → T → α) (typeOf : T → Nat) (framesOk : T → Bool) (ts : List T) (items : List (Option T))
    (m t : Int) (ty : DistType) (hth : Threads typeOf framesOk items ts) (hn : 2 ≤ ts.length) (hm : 1 ≤ m) (hm' : m ≤ 2147483647)
    (hty : metric t = some ty) :
    distancesOfThreads dist typeOf framesOk items m t =
      (threadsCompare (dist ty) (sameType typeOf) ts m.toNat ts.length).bind fun d => .ok (some d) := by
  obtain ⟨t1, t2, -⟩ := metric_range hty
  have hl : items.length = ts.length := by rw [hth.1, List.length_map]
  unfold distancesOfThreads
  rw [intArg_of (by omega), intArg_of (by omega)]
  dsimp only
  rw [if_neg (by omega), hl, validate_eq, if_pos (by omega), hty]
  dsimp only
  rw [(prepareArray_spec typeOf framesOk items none ts).2 ⟨hth, by simp⟩]

/-- **C109.** `Distances(threads, m, dist_type)` for a list of at least two threads of the same type, a positive number `m` and a
distance type that is a metric: the size is `(min(m, n - 1), n)`, and `get_distance(i, j)` is zero for equal indices and otherwise the
distance of the threads with the smaller and the larger index. -/
theorem C109_threads {α T : Type} (zero : α) (dist : DistType → T → T → α) (typeOf : T → Nat) (framesOk : T → Bool) (ts : List T)
    (items : List (Option T)) (m t : Int) (ty : DistType) (hth : Threads typeOf framesOk items ts) (hn : 2 ≤ ts.length)
    (hn' : ts.length ≤ 2147483647) (hm : 1 ≤ m) (hm' : m ≤ 2147483647) (hty : metric t = some ty) :
    ∃ d, distancesOfThreads dist typeOf framesOk items m t = .ok (some d) ∧ getSize d = (min m (ts.length - 1), (ts.length : Int)) ∧
      ∀ (i j : Nat) a b, (i : Int) < (getSize d).1 → ts[min i j]? = some a → ts[max i j]? = some b →
        getDistance zero d i j = .ok (some (if i = j then zero else dist ty a b)) := by
  obtain ⟨d, hd, -, hg⟩ := C03_split_compute_merge zero dist (fun _ => 0) (sameType typeOf) ts m.toNat ts.length 1 ty (by omega) hn
    (by omega) (le_refl _) (by rw [List.take_length]; exact sameType_of typeOf ts hth.2.2)
  have hsz : d.m = min m.toNat (ts.length - 1) ∧ d.n = ts.length := by
    unfold threadsCompare at hd
    rcases hnew : new α m.toNat ts.length with d0 | _ | _
    · rw [hnew, Out.bind_ok] at hd
      split at hd
      · simp at hd
      obtain ⟨w, h1, h2, -⟩ := new_ok hnew
      have key : ∀ (l : List (Nat × Nat)) (x y : Matrix α), l.foldlM (fun d (ij : Nat × Nat) =>
          match ts[ij.1]?, ts[ij.2]? with
          | some a, some b => storeAt d ij.1 ij.2 (dist ty a b)
          | _, _ => .ub) x = .ok y → y.m = x.m ∧ y.n = x.n := by
        intro l
        induction l with
        | nil => intro x y h; cases h; exact ⟨rfl, rfl⟩
        | cons c l ih =>
          intro x y h
          rw [List.foldlM_cons] at h
          cases ha : ts[c.1]? with
          | none => rw [ha] at h; simp at h
          | some a =>
            cases hb : ts[c.2]? with
            | none => rw [ha, hb] at h; simp at h
            | some b =>
              rw [ha, hb] at h
              dsimp only at h
              cases hs : storeAt x c.1 c.2 (dist ty a b) with
              | abort => rw [hs] at h; simp at h
              | ub => rw [hs] at h; simp at h
              | ok x' =>
                rw [hs, Out.bind_ok] at h
                obtain ⟨g1, g2⟩ := ih x' y h
                have : x'.m = x.m ∧ x'.n = x.n := by
                  unfold storeAt store at hs
                  split at hs
                  · split at hs
                    · cases hs; exact ⟨rfl, rfl⟩
                    · simp at hs
                  · simp at hs
                exact ⟨g1.trans this.1, g2.trans this.2⟩
      obtain ⟨g1, g2⟩ := key _ _ _ hd
      omega
    · rw [hnew] at hd; simp at hd
    · rw [hnew] at hd; simp at hd
  obtain ⟨h1, h2⟩ := hsz
  refine ⟨d, by rw [ofThreads_eq dist typeOf framesOk ts items m t ty hth hn hm hm' hty, hd]; rfl, ?_, ?_⟩
  · simp only [getSize, Prod.mk.injEq]
    omega
  · intro i j a b hi ha hb
    simp only [getSize] at hi
    have hj : max i j < ts.length := (List.getElem?_eq_some_iff.1 hb).1
    rw [getDistance, indices_eq (by unfold Small; omega), if_pos (by simp only [Valid, getSize]; omega)]
    dsimp only [Int.toNat_natCast]
    by_cases hij : i = j
    · subst hij
      rw [if_pos rfl, Distances.get, if_pos rfl]
      rfl
    · rw [if_neg hij]
      have key := hg (min i j) (max i j) a b (by omega) (by omega) hj ha hb
      have : Distances.get zero d i j = .ok (dist ty a b) := by
        rcases Nat.lt_or_ge i j with h | h
        · rw [Nat.min_eq_left (by omega), Nat.max_eq_right (by omega)] at key
          exact key
        · rw [Nat.min_eq_right h, Nat.max_eq_left h] at key
          rw [C01_get_symm]; exact key
      rw [this]
      rfl

/-- **C109.** Whatever the list is, as long as it is not empty: a matrix is made exactly if the arguments are right; otherwise an
exception is raised. -/
theorem C109_iff_partial {α T : Type} (dist : DistType → T → T → α) (typeOf : T → Nat) (framesOk : T → Bool) (items : List (Option T))
    (hne : items ≠ []) (m t : Int) :
    ((∃ ts ty, Threads typeOf framesOk items ts ∧ 2 ≤ items.length ∧ 1 ≤ m ∧ m ≤ 2147483647 ∧ metric t = some ty) ∧
      ∃ d, distancesOfThreads dist typeOf framesOk items m t = .ok (some d)) ∨
    ((¬ ∃ ts ty, Threads typeOf framesOk items ts ∧ 2 ≤ items.length ∧ 1 ≤ m ∧ m ≤ 2147483647 ∧ metric t = some ty) ∧
      distancesOfThreads dist typeOf framesOk items m t = .ok none) := by
  by_cases h : ∃ ts ty, Threads typeOf framesOk items ts ∧ 2 ≤ items.length ∧ 1 ≤ m ∧ m ≤ 2147483647 ∧ metric t = some ty
  · refine .inl ⟨h, ?_⟩
    obtain ⟨ts, ty, h1, h2, h3, h4, h5⟩ := h
    have hl : items.length = ts.length := by rw [h1.1, List.length_map]
    rw [hl] at h2
    rw [ofThreads_eq dist typeOf framesOk ts items m t ty h1 h2 h3 h4 h5]
    by_cases hz : Nonempty α
    · obtain ⟨d, hd, -⟩ := C03_split_compute_merge hz.some dist (fun _ => 0) (sameType typeOf) ts m.toNat ts.length 1 ty (by omega) h2
        (by omega) (le_refl _) (by rw [List.take_length]; exact sameType_of typeOf ts h1.2.2)
      exact ⟨d, by rw [hd]; rfl⟩
    · obtain ⟨a, _, _⟩ : ∃ a l, ts = a :: l := by cases ts with | nil => simp at h2 | cons a l => exact ⟨a, l, rfl⟩
      exact absurd ⟨dist ty a a⟩ hz
  · refine .inr ⟨h, ?_⟩
    unfold distancesOfThreads
    split
    · next m' t' hm ht =>
      obtain ⟨rfl, -, m1⟩ := intArg_some hm
      obtain ⟨rfl, -, -⟩ := intArg_some ht
      rw [if_neg (by simpa using hne)]
      split
      · rfl
      · next ty hty =>
        rw [validate_eq] at hty
        split at hty
        · next hmn =>
          split
          · rfl
          · next ts hts =>
            exact absurd ⟨ts, ty, ((prepareArray_spec typeOf framesOk items none ts).1 hts).1, by omega, by omega, m1, hty⟩ h
        · simp at hty
    · rfl

example : Threads (fun _ : Nat => 0) (fun _ => true) [some 4, some 5, some 6] [4, 5, 6] ∧ 2 ≤ [4, 5, 6].length ∧
    metric 2 = some .levenshtein := by
  refine ⟨⟨rfl, by simp, by simp⟩, by decide, rfl⟩

/-- What is missing in C109: an empty list gives an array of length zero, which C does not allow. -/
theorem C109_not_empty {α T : Type} (dist : DistType → T → T → α) (typeOf : T → Nat) (framesOk : T → Bool) (m t : Int)
    (hm : -2147483648 ≤ m ∧ m ≤ 2147483647) (ht : -2147483648 ≤ t ∧ t ≤ 2147483647) :
    distancesOfThreads dist typeOf framesOk [] m t = .ub := by
  unfold distancesOfThreads
  rw [intArg_of hm, intArg_of ht]
  rfl

end Satyr.Py
