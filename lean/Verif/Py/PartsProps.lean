import Verif.Py.MetricsProps
/-!
# Properties of the Python classes `DistancesPart` and `Dendrogram`
-/
namespace Satyr.Py
open Satyr.Distances

/-! ## C110: parts of matrices -/

/-- What happens to a part that is sent to another process. -/
def sent {α : Type} (p : Part α) : Out (Option (Part α)) := (partReduce p).bind partNewPy

/-- **C110.** A part that is pickled and unpickled is the same part, with or without its distances. -/
theorem C110_pickle {α : Type} (p : Part α) (hc : p.Complete) (hm : p.m ≤ 2147483647) (hn : p.n ≤ 2147483647)
    (hmb : p.mBegin ≤ 2147483647) (hnb : p.nBegin ≤ 2147483647) (hlen : p.len < 4294967296) (hsum : p.checksum < 4294967296) :
    sent p = .ok (some p) := by
  obtain ⟨m, n, mb, nb, len, ty, sm, ds⟩ := p
  dsimp only at hm hn hmb hnb hlen hsum
  have e1 : ullArg (len : Int) = len := by unfold ullArg; omega
  have e2 : ullArg (sm : Int) % 4294967296 = sm := by unfold ullArg; omega
  have e3 : distTypeOf (distTypeNumber ty) = some ty := by cases ty <;> rfl
  have e4 : intArg (distTypeNumber ty) = some (distTypeNumber ty) := by cases ty <;> rfl
  have key : ∀ f : Floats α, partNewPy ⟨m, n, mb, nb, len, distTypeNumber ty, sm, f⟩ =
      match f with
      | .none => .ok (some ⟨m, n, mb, nb, len, ty, sm, none⟩)
      | .list l => if l.length > len then .ub else .ok (some ⟨m, n, mb, nb, len, ty, sm, some l⟩)
      | .other => .ok none := by
    intro f
    unfold partNewPy
    dsimp only
    rw [intArg_of (by omega), intArg_of (by omega), intArg_of (by omega), intArg_of (by omega), e4]
    dsimp only
    rw [if_neg (by omega), e3]
    dsimp only
    rw [e1, e2]
    simp only [Int.toNat_natCast, partNew]
    cases f <;> rfl
  unfold sent partReduce
  cases ds with
  | none =>
    dsimp only [Out.bind]
    rw [key]
  | some ds =>
    have hl : ds.length = len := hc ds rfl
    dsimp only
    rw [if_neg (by omega), Out.bind, key]
    subst hl
    dsimp only
    rw [List.take_length, if_neg (by omega)]

/-- A part that was sent to another process, computed there, and sent back. -/
def Processed {α T : Type} (dist : DistType → T → T → α) (checksum : List T → Nat) (typeOf : T → Nat) (framesOk : T → Bool)
    (items : List (Option T)) (p q : Part α) : Prop :=
  ∃ p₁ p₂, sent p = .ok (some p₁) ∧ partComputePy dist checksum typeOf framesOk items p₁ = .ok (some p₂) ∧ sent p₂ = .ok (some q)

theorem mapM_ok {β γ : Type} (f : β → Out γ) : ∀ (l : List β) (r : List γ), l.mapM f = .ok r → List.Forall₂ (fun x y => f x = .ok y) l r
  | [], r, h => by simp at h; subst h; exact .nil
  | x :: l, r, h => by
    rw [List.mapM_cons] at h
    cases hx : f x with
    | abort => rw [hx] at h; simp at h
    | ub => rw [hx] at h; simp at h
    | ok y =>
      rw [hx, Out.bind_ok] at h
      cases hl : l.mapM f with
      | abort => rw [hl] at h; simp at h
      | ub => rw [hl] at h; simp at h
      | ok ys =>
        rw [hl, Out.bind_ok] at h
        simp at h
        subst h
        exact .cons hx (mapM_ok f l ys hl)

theorem forall₂_left {β γ : Type} {R : β → γ → Prop} {l : List β} {r : List γ} (h : List.Forall₂ R l r) : ∀ x ∈ l, ∃ y, R x y := by
  induction h with
  | nil => simp
  | cons h _ ih =>
    intro x hx
    rcases List.mem_cons.1 hx with rfl | hx
    · exact ⟨_, h⟩
    · exact ih x hx

theorem forall₂_right {β γ : Type} {R : β → γ → Prop} {l : List β} {r : List γ} (h : List.Forall₂ R l r) : ∀ y ∈ r, ∃ x ∈ l, R x y := by
  induction h with
  | nil => simp
  | cons h _ ih =>
    intro y hy
    rcases List.mem_cons.1 hy with rfl | hy
    · exact ⟨_, by simp, h⟩
    · obtain ⟨x, hx, hxy⟩ := ih y hy
      exact ⟨x, by simp [hx], hxy⟩

theorem forall₂_mono {β γ : Type} {R S : β → γ → Prop} {l : List β} {r : List γ} (h : List.Forall₂ R l r)
    (hRS : ∀ x ∈ l, ∀ y, R x y → S x y) : List.Forall₂ S l r := by
  induction h with
  | nil => exact .nil
  | cons h _ ih => exact .cons (hRS _ (by simp) _ h) (ih fun x hx => hRS x (by simp [hx]))

theorem forall₂_unique {β γ : Type} {f : β → Out γ} {l : List β} {r r' : List γ} (h : List.Forall₂ (fun x y => f x = .ok y) l r)
    (h' : List.Forall₂ (fun x y => f x = .ok y) l r') : r = r' := by
  induction h generalizing r' with
  | nil => cases h'; rfl
  | cons h _ ih =>
    cases h' with
    | cons h2 h3 =>
      rw [h] at h2
      cases h2
      rw [ih h3]

theorem partCompute_fields {α T : Type} {dist : DistType → T → T → α} {checksum : List T → Nat} {ts : List T} {p p' : Part α}
    (h : partCompute dist checksum ts p = .ok p') : ∃ ds, p' = { p with distances := some ds, checksum := checksum (ts.take p.n) } := by
  unfold partCompute at h
  cases hr : computeLoop (dist p.distType) ts p.m p.n p.len p.mBegin p.nBegin with
  | ok ds => rw [hr] at h; simp at h; exact ⟨ds, h.symm⟩
  | abort => rw [hr] at h; simp at h
  | ub => rw [hr] at h; simp at h

theorem create_parts (α : Type) (ty : DistType) {m n k : Nat} (hm : 1 ≤ m) (hn : 2 ≤ n) (hk : 1 ≤ k) :
    ∃ ps, partCreate α m n ty k = .ok ps ∧ ∀ p ∈ ps, p.m = min m (n - 1) ∧ p.n = n ∧ p.distType = ty ∧ p.checksum = 0 ∧
      p.distances = none ∧ 0 < p.len ∧ p.len ≤ cells (min m (n - 1)) n ∧ p.mBegin < p.m ∧ p.nBegin < p.n := by
  have h0 : 0 < min m (n - 1) := by omega
  have he := partCreate_eq α ty (m := m) (n := n) (k := k) h0 hk
  have hc := partCreate_cells α h0 hk he
  refine ⟨_, he, ?_⟩
  generalize hps : (List.range (min k (cells (min m (n - 1)) n))).map (mkPart α ty (min m (n - 1)) n (cells (min m (n - 1)) n) k) = ps at hc
  intro p hp
  have hpos : 0 < p.len := by
    rw [← hps, List.mem_map] at hp
    obtain ⟨s, hs, rfl⟩ := hp
    have hs : s < min k (cells (min m (n - 1)) n) := by simpa using hs
    apply plen_pos (k := k)
    have hd := Nat.div_add_mod (cells (min m (n - 1)) n) k
    rcases Nat.eq_zero_or_pos (cells (min m (n - 1)) n / k) with h | h
    · unfold pstart
      rw [h] at hd ⊢
      simp at hd ⊢
      omega
    · have hle : (s + 1) * (cells (min m (n - 1)) n / k) ≤ k * (cells (min m (n - 1)) n / k) := Nat.mul_le_mul_right _ (by omega)
      rw [Nat.succ_mul] at hle
      unfold pstart
      omega
  have hlen : p.len ≤ cells (min m (n - 1)) n := by
    have h1 : (ps.flatMap Part.cells).length = cells (min m (n - 1)) n := by
      rw [hc, (loopPairs_eq_walk (by omega)).1]; simp
    have h2 : p.cells.length ≤ (ps.flatMap Part.cells).length := by
      obtain ⟨l1, l2, rfl⟩ := List.append_of_mem hp
      simp
      omega
    rw [h1] at h2
    simpa [Part.cells] using h2
  have hfirst : (p.mBegin, p.nBegin) ∈ ps.flatMap Part.cells := by
    refine List.mem_flatMap.2 ⟨p, hp, ?_⟩
    unfold Part.cells
    obtain ⟨l, hl⟩ : ∃ l, p.len = l + 1 := ⟨p.len - 1, by omega⟩
    rw [hl, cellsFrom]
    exact List.mem_cons_self
  rw [hc, mem_loopPairs] at hfirst
  rw [← hps, List.mem_map] at hp
  obtain ⟨s, hs, rfl⟩ := hp
  exact ⟨rfl, rfl, rfl, rfl, rfl, hpos, hlen, hfirst.2.1, hfirst.2.2⟩

/-- **C110.** Making the parts of a matrix, sending each to another process, computing it there for the same threads, sending it
back, and merging the parts in any order gives the matrix that `Distances` gives for the threads. -/
theorem C110_distributed {α T : Type} (zero : α) (dist : DistType → T → T → α) (checksum : List T → Nat) (hsum : ∀ l, checksum l < 4294967296)
    (typeOf : T → Nat) (framesOk : T → Bool) (ts : List T) (items : List (Option T)) (m nparts t : Int) (ty : DistType)
    (hth : Threads typeOf framesOk items ts) (hn : 2 ≤ ts.length) (hn' : ts.length ≤ 46340) (hm : 1 ≤ m) (hm' : m ≤ 2147483647)
    (hty : metric t = some ty) (hk : 1 ≤ nparts) (hk' : nparts < 4294967296) :
    ∃ ps d qs, partsCreate α ts.length nparts m t = .ok (some ps) ∧
      distancesOfThreads dist typeOf framesOk items m t = .ok (some d) ∧
      List.Forall₂ (Processed dist checksum typeOf framesOk items) ps qs ∧
      ∀ qs' l, List.Forall₂ (Processed dist checksum typeOf framesOk items) ps qs' → l.Perm qs' → mergePartsPy l = .ok (some d) := by
  obtain ⟨t1, t2, -⟩ := metric_range hty
  have hl : items.length = ts.length := by rw [hth.1, List.length_map]
  obtain ⟨d, hd, hs, -⟩ := C03_split_compute_merge zero dist checksum (sameType typeOf) ts m.toNat ts.length nparts.toNat ty (by omega) hn
    (by omega) (le_refl _) (by rw [List.take_length]; exact sameType_of typeOf ts hth.2.2)
  have hcreate : partsCreate α ts.length nparts m t =
      (partCreate α m.toNat ts.length ty nparts.toNat).bind fun ps => .ok (some ps) := by
    unfold partsCreate
    rw [intArg_of (by omega), intArg_of (by omega), intArg_of (by omega)]
    dsimp only
    rw [if_neg (by omega), validate_eq, if_pos (by omega), hty]
    dsimp only
    have : unsignedArg nparts = nparts.toNat := by unfold unsignedArg; omega
    rw [this, Int.toNat_natCast]
  obtain ⟨ps, he, hps⟩ := create_parts α ty (m := m.toNat) (n := ts.length) (k := nparts.toNat) (by omega) hn (by omega)
  have hN : cells (min m.toNat (ts.length - 1)) ts.length < 4294967296 := by
    generalize hM : min m.toNat (ts.length - 1) = M
    unfold cells
    have a1 : M * (M - 1) ≤ 46340 * 46340 := Nat.mul_le_mul (by omega) (by omega)
    have a2 : M * (ts.length - M) ≤ 46340 * 46340 := Nat.mul_le_mul (by omega) (by omega)
    omega
  unfold splitComputeMerge at hs
  rw [he, Out.bind_ok] at hs
  cases hqs : ps.mapM (partCompute dist checksum ts) with
  | abort => rw [hqs] at hs; simp at hs
  | ub => rw [hqs] at hs; simp at hs
  | ok qs =>
    rw [hqs, Out.bind_ok] at hs
    have hall := mapM_ok _ ps qs hqs
    -- a part that is processed is computed
    have hproc : ∀ p ∈ ps, ∀ q, partCompute dist checksum ts p = .ok q →
        sent p = .ok (some p) ∧ partComputePy dist checksum typeOf framesOk items p = .ok (some q) ∧ sent q = .ok (some q) := by
      intro p hp q hq
      obtain ⟨a1, a2, a3, a4, a5, a6, a7, a8, a9⟩ := hps p hp
      have hcq := (partCompute_spec hq).2.2.2.2.1
      obtain ⟨ds, rfl⟩ := partCompute_fields hq
      refine ⟨?_, ?_, ?_⟩
      · exact C110_pickle p (by intro ds' h; rw [a5] at h; cases h) (by omega) (by omega) (by omega) (by omega) (by omega) (by omega)
      · unfold partComputePy
        rw [if_neg (by omega), (prepareArray_spec typeOf framesOk items none ts).2 ⟨hth, by simp⟩]
        dsimp only
        rw [if_neg (by omega), hq]
        rfl
      · refine C110_pickle _ hcq ?_ ?_ ?_ ?_ ?_ ?_
        · show p.m ≤ _; omega
        · show p.n ≤ _; omega
        · show p.mBegin ≤ _; omega
        · show p.nBegin ≤ _; omega
        · show p.len < _; omega
        · exact hsum _
    have hP : ∀ p ∈ ps, ∀ q, Processed dist checksum typeOf framesOk items p q → partCompute dist checksum ts p = .ok q := by
      rintro p hp q ⟨p1, p2, h1, h2, h3⟩
      obtain ⟨q', hq'⟩ := forall₂_left hall p hp
      obtain ⟨e1, e2, e3⟩ := hproc p hp q' hq'
      rw [e1] at h1
      cases h1
      rw [e2] at h2
      cases h2
      rw [e3] at h3
      cases h3
      exact hq'
    refine ⟨ps, d, qs, by rw [hcreate, he]; rfl, ?_, ?_, ?_⟩
    · rw [ofThreads_eq dist typeOf framesOk ts items m t ty hth hn hm hm' hty, hd]; rfl
    · refine forall₂_mono hall fun p hp q hq => ?_
      obtain ⟨e1, e2, e3⟩ := hproc p hp q hq
      exact ⟨p, q, e1, e2, e3⟩
    · intro qs' l hqs' hl'
      have heq := forall₂_unique hall (forall₂_mono hqs' hP)
      subst heq
      have hmem : ∀ q ∈ l, ∃ p ∈ ps, partCompute dist checksum ts p = .ok q := fun q hq =>
        forall₂_right hall q (hl'.mem_iff.1 hq)
      have hord := C04_order_independent_computed dist checksum ts ty hl' (fun q hq => by
          obtain ⟨p, hp, hpq⟩ := hmem q hq
          obtain ⟨a1, a2, a3, a4, a5, a6, a7, a8, a9⟩ := hps p hp
          obtain ⟨b1, b2, -⟩ := partCompute_spec hpq
          rw [b1, b2]
          omega)
        (fun q hq => by
          obtain ⟨p, hp, hpq⟩ := hmem q hq
          obtain ⟨b1, b2, b3, -⟩ := partCompute_spec hpq
          rw [b3, (hps p hp).2.2.1])
        (fun q hq => by
          obtain ⟨p, hp, hpq⟩ := hmem q hq
          exact ⟨p, hpq⟩)
      unfold mergePartsPy
      rw [if_neg, hord, hs]
      rintro rfl
      rw [← hord] at hs
      simp [partMerge] at hs

example : ∃ ps qs d, partsCreate Nat 3 2 0 2 = .ok (some ps) ∧
    List.Forall₂ (Processed (fun _ a b => a + b) (fun _ => 7) (fun _ => 0) (fun _ => true) [some 10, some 20, some 30]) ps qs ∧
    mergePartsPy qs.reverse = .ok (some d) ∧ getDistance 0 d 0 2 = .ok (some 40) :=
  ⟨_, [⟨2, 3, 0, 1, 2, .levenshtein, 7, some [30, 40]⟩, ⟨2, 3, 1, 2, 1, .levenshtein, 7, some [50]⟩], _, rfl,
    .cons ⟨_, _, rfl, rfl, rfl⟩ (.cons ⟨_, _, rfl, rfl, rfl⟩ .nil), rfl, by decide⟩

/-- C110: a part is computed only for a list of as many threads as the matrix has columns; with any other list that is not empty an
exception is raised. -/
theorem C110_wrong_number {α T : Type} (dist : DistType → T → T → α) (checksum : List T → Nat) (typeOf : T → Nat) (framesOk : T → Bool)
    (items : List (Option T)) (p : Part α) (h0 : items ≠ []) (h : items.length ≠ p.n) :
    partComputePy dist checksum typeOf framesOk items p = .ok none := by
  unfold partComputePy
  rw [if_neg (fun e => h0 (List.length_eq_zero_iff.1 e))]
  split
  · rfl
  · rw [if_pos h]

example : partComputePy (fun _ a b => a + b) (fun _ => 7) (fun _ => 0) (fun _ => true) [some 10, some 20, some 30]
    (⟨1, 2, 0, 1, 1, .levenshtein, 0, none⟩ : Part Nat) = .ok none := by decide

/-- The number of parts must be positive: for zero, and for multiples of 2^32, the library divides by zero. -/
theorem C110_not_zero (α : Type) (n nparts m t : Int) (ty : DistType) (hn : 2 ≤ n) (hn' : n ≤ 2147483647) (hm : 0 ≤ m) (hm' : m ≤ 2147483647)
    (hty : metric t = some ty) (hz : nparts % 4294967296 = 0) : partsCreate α n nparts m t = .ub := by
  obtain ⟨t1, t2, -⟩ := metric_range hty
  unfold partsCreate
  rw [intArg_of (by omega), intArg_of (by omega), intArg_of (by omega)]
  dsimp only
  generalize hm2 : (if m = 0 then n - 1 else m) = m2
  have h1 : 1 ≤ m2 := by rw [← hm2]; split <;> omega
  rw [validate_eq, if_pos ⟨h1, hn⟩, hty]
  dsimp only
  have hu : unsignedArg nparts = 0 := by unfold unsignedArg; rw [hz]; rfl
  rw [hu]
  have : partCreate α m2.toNat n.toNat ty 0 = .ub := by
    unfold partCreate
    generalize hm3 : (if m2.toNat ≥ n.toNat then n.toNat - 1 else m2.toNat) = m3
    have h3 : 0 < m3 ∧ m3 < n.toNat := by rw [← hm3]; split <;> omega
    dsimp only
    rw [if_neg (by omega), if_neg (by simp [mul_pred_even]), if_pos rfl]
  rw [this]
  rfl

/-- The constructor of parts is not safe: with more distances than announced it writes beyond the array; with less, merging reads
uninitialised memory. -/
theorem C110_not_checked :
    partNewPy ⟨1, 2, 0, 1, 1, 2, 0, .list [5, 6]⟩ = .ub ∧
    ∃ p, partNewPy ⟨1, 2, 0, 1, 1, 2, 0, .list ([] : List Nat)⟩ = .ok (some p) ∧ mergePartsPy [p] = .ub :=
  ⟨rfl, _, rfl, rfl⟩

theorem partsLoop_eq (ok : Object → Bool) (t : CPtr) : ∀ (l : List Object) (p : Object) (s : State),
    partsLoop ok l (some p) s = framesLoop ok t l (some p) s
  | [], _, _ => rfl
  | x :: l, p, s => by
    rw [partsLoop, framesLoop]
    split
    · rfl
    · exact partsLoop_eq ok t l x _

/-- Merging passes exactly the parts of the Python list to the library, in the same order, if no part occurs twice. Reference
counts are as before. -/
theorem C110_linked_partial (ok : Object → Bool) (items : List Object) (s : State) (hne : items ≠ []) (hok : ∀ x ∈ items, ok x = true)
    (hd : (items.map s.cOf).Nodup) (hz : ∀ x ∈ items, s.cOf x ≠ 0) :
    ∃ p s', prepareParts ok items s = (p, s') ∧ Linked s'.next p (items.map s.cOf) ∧ s'.refs = s.refs := by
  cases items with
  | nil => exact absurd rfl hne
  | cons x l =>
    obtain ⟨s', e1, e2, -, -, e5, -⟩ := framesLoop_some ok 0 l x (s.addRef x 1) (fun y hy => hok y (by simp [hy])) hd
      (fun y hy => hz y (by simp [hy]))
    have h : partsLoop ok (x :: l) none s = (true, s') := by
      rw [partsLoop, if_neg (by simp [hok x (by simp)]), ← e1, ← partsLoop_eq ok 0]
      rfl
    have hr := framesLoop_refs ok 0 l (some x) (s.addRef x 1)
    rw [e1] at hr
    refine ⟨s'.cOf x, s', by unfold prepareParts; rw [h], ⟨by rw [e2]; rfl, hz x (by simp), e5⟩, ?_⟩
    rw [show s'.refs = _ from hr]
    funext y
    simp only [State.addRefOpt, State.addRef, update]
    split_ifs <;> subst_vars <;> omega

/-- What is missing: with a part that occurs twice, the parts between are lost; an incomplete matrix is the result. -/
theorem C110_not_repeated : ∃ s', prepareParts (fun _ => true) [1, 2, 1] blank = (1, s') ∧ Linked s'.next 1 [1] :=
  ⟨_, rfl, rfl, by decide, rfl⟩

/-! ## C111: dendrograms -/

theorem threadsCompare_made {α T : Type} (dist : T → T → α) (same : List T → Bool) (ts : List T) {m n : Nat} {d : Matrix α}
    (h : threadsCompare dist same ts m n = .ok d) (hm : 1 ≤ m) (hn : 2 ≤ n) :
    ∃ d₀ ops, new α m n = .ok d₀ ∧ (∀ op ∈ ops, op.1 = op.2.1 ∨ InRange d₀.m d₀.n op.1 op.2.1) ∧ runSets d₀ ops = .ok d := by
  unfold threadsCompare at h
  cases hnew : new α m n with
  | abort => rw [hnew] at h; simp at h
  | ub => rw [hnew] at h; simp at h
  | ok d₀ =>
    rw [hnew, Out.bind_ok] at h
    split at h
    · simp at h
    obtain ⟨w, h1, h2, -⟩ := new_ok hnew
    have hp : ∀ c ∈ loopPairs m n, c.1 < c.2 ∧ c.1 < d₀.m ∧ c.2 < d₀.n := by
      intro c hc
      have := mem_loopPairs.1 hc
      obtain ⟨c1, c2, c3⟩ := this
      refine ⟨c1, ?_, ?_⟩ <;> omega
    generalize loopPairs m n = l at h hp
    have key : ∀ (l : List (Nat × Nat)) (x : Matrix α), x.m = d₀.m → x.n = d₀.n → (∀ c ∈ l, c.1 < c.2 ∧ c.1 < d₀.m ∧ c.2 < d₀.n) →
        l.foldlM (fun d (ij : Nat × Nat) =>
          match ts[ij.1]?, ts[ij.2]? with
          | some a, some b => storeAt d ij.1 ij.2 (dist a b)
          | _, _ => .ub) x = .ok d →
        ∃ ops : List (Nat × Nat × α), (∀ op ∈ ops, op.1 = op.2.1 ∨ InRange d₀.m d₀.n op.1 op.2.1) ∧ runSets x ops = .ok d := by
      intro l
      induction l with
      | nil => intro x _ _ _ h; exact ⟨[], by simp, h⟩
      | cons c l ih =>
        intro x hx1 hx2 hc h
        rw [List.foldlM_cons] at h
        obtain ⟨c1, c2, c3⟩ := hc c (by simp)
        cases ha : ts[c.1]? with
        | none => rw [ha] at h; simp at h
        | some a =>
          cases hb : ts[c.2]? with
          | none => rw [ha, hb] at h; simp at h
          | some b =>
            rw [ha, hb] at h
            dsimp only at h
            cases hs : storeAt x c.1 c.2 (dist a b) with
            | abort => rw [hs] at h; simp at h
            | ub => rw [hs] at h; simp at h
            | ok x' =>
              rw [hs, Out.bind_ok] at h
              have hsz : x'.m = x.m ∧ x'.n = x.n := by
                unfold storeAt store at hs
                split at hs
                · split at hs
                  · cases hs; exact ⟨rfl, rfl⟩
                  · simp at hs
                · simp at hs
              obtain ⟨ops, o1, o2⟩ := ih x' (by omega) (by omega) (fun c hc' => hc c (by simp [hc'])) h
              refine ⟨(c.1, c.2, dist a b) :: ops, ?_, ?_⟩
              · intro op hop
                rcases List.mem_cons.1 hop with rfl | hop
                · exact .inr ⟨by simp only; omega, by simp only; omega, by simp only; omega⟩
                · exact o1 op hop
              · rw [runSets, List.foldlM_cons]
                have : Distances.set x c.1 c.2 (dist a b) = .ok x' := by
                  rw [Distances.set, if_neg (by omega), if_neg (by omega)]
                  exact hs
                rw [this, Out.bind_ok]
                exact o2
    obtain ⟨ops, o1, o2⟩ := key l d₀ rfl rfl hp h
    exact ⟨d₀, ops, rfl, o1, o2⟩

/-- **C111.** The dendrogram of the matrix for a list of threads has as many objects as there are threads. `get_object` gives
each of their indices exactly once for the positions below the size, and raises an exception for other positions. -/
theorem C111_objects {α T : Type} (A : Cluster.Arith α) (dist : DistType → T → T → α) (typeOf : T → Nat) (framesOk : T → Bool)
    (ts : List T) (items : List (Option T)) (m t : Int) (ty : DistType) (hth : Threads typeOf framesOk items ts) (hn : 2 ≤ ts.length)
    (hn' : ts.length ≤ 2147483647) (hm : 1 ≤ m) (hm' : m ≤ 2147483647) (hty : metric t = some ty) :
    ∃ d r, distancesOfThreads dist typeOf framesOk items m t = .ok (some d) ∧ dendrogramNew A d = .ok r ∧
      dendrogramSize r = ts.length ∧ r.WF ∧
      (∃ order : List Nat, order.Perm (List.range ts.length) ∧ ∀ i : Nat, ∀ h : i < order.length, getObject r i = .ok (some order[i])) ∧
      ∀ i : Int, i < 0 ∨ (ts.length : Int) ≤ i → getObject r i = .ok none := by
  obtain ⟨d, hd, hsz, hg⟩ := C109_threads A.zero dist typeOf framesOk ts items m t ty hth hn hn' hm hm' hty
  have hd' := hd
  rw [ofThreads_eq dist typeOf framesOk ts items m t ty hth hn hm hm' hty] at hd'
  cases htc : threadsCompare (dist ty) (sameType typeOf) ts m.toNat ts.length with
  | abort => rw [htc] at hd'; cases hd'
  | ub => rw [htc] at hd'; cases hd'
  | ok d2 =>
    rw [htc] at hd'
    cases hd'
    obtain ⟨t0, ht0⟩ : ∃ a, ts[0]? = some a := ⟨_, List.getElem?_eq_getElem (by omega)⟩
    have hfill : Cluster.Filled A.zero d m.toNat ts.length
        (fun i j => dist ty (ts[min i j]?.getD t0) (ts[max i j]?.getD t0)) := by
      refine ⟨threadsCompare_made _ _ ts htc (by omega) hn, ?_⟩
      intro i j hr
      simp only [getSize, Prod.mk.injEq] at hsz
      obtain ⟨r1, r2, r3⟩ := hr
      have h1 : min i j < ts.length := by omega
      have h2 : max i j < ts.length := by omega
      have h3 := hg (min i j) (max i j) ts[min i j] ts[max i j] (by simp only [getSize]; omega)
        (by rw [show min (min i j) (max i j) = min i j by omega]; exact List.getElem?_eq_getElem h1)
        (by rw [show max (min i j) (max i j) = max i j by omega]; exact List.getElem?_eq_getElem h2)
      rw [if_neg (by omega), getDistance, indices_eq (by unfold Small; omega),
        if_pos (by simp only [Valid, getSize]; omega)] at h3
      dsimp only [Int.toNat_natCast] at h3
      rw [List.getElem?_eq_getElem h1, List.getElem?_eq_getElem h2]
      dsimp only [Option.getD_some]
      have h4 : Distances.get A.zero d (min i j) (max i j) = .ok (dist ty ts[min i j] ts[max i j]) := by
        cases hx : Distances.get A.zero d (min i j) (max i j) with
        | ok v => rw [hx] at h3; cases h3; rfl
        | abort => rw [hx] at h3; cases h3
        | ub => rw [hx] at h3; cases h3
      rw [← h4]
      rcases Nat.lt_or_ge i j with h | h
      · rw [Nat.min_eq_left (by omega), Nat.max_eq_right (by omega)]
      · rw [Nat.min_eq_right h, Nat.max_eq_left h, C01_get_symm]
    obtain ⟨r, hr, hperm, hlev⟩ := Cluster.C10_cluster_permutation A hfill
    have hlen : r.order.length = ts.length := by rw [hperm.length_eq, List.length_range]
    refine ⟨d, r, hd, hr, by unfold dendrogramSize; rw [hlen], ⟨?_, by omega⟩, ⟨r.order, hperm, fun i hi => ?_⟩, fun i hi => ?_⟩
    · intro h; rw [h] at hlen; simp at hlen; omega
    · unfold getObject
      rw [intArg_of (by omega)]
      dsimp only
      rw [if_neg (by omega), Int.toNat_natCast, List.getElem?_eq_getElem hi]
    · unfold getObject
      split
      · rfl
      · next j hj =>
        obtain ⟨rfl, -⟩ := intArg_some hj
        rw [if_pos (by omega)]

/-- **C111.** `get_merge_level(i)` gives the level between the objects `i` and `i + 1` for all `i` for which there are such objects;
for negative numbers, and for those above the size, it raises an exception. Missing: the size, and the size minus one. -/
theorem C111_levels_partial {α : Type} (d : Cluster.Dendrogram α) (w : d.WF) (hs : dendrogramSize d ≤ 2147483647) :
    (∀ i : Nat, (i : Int) + 1 < dendrogramSize d → ∃ l, d.levels[i]? = some l ∧ getMergeLevel d i = .ok (some l)) ∧
    ∀ i : Int, i < 0 ∨ dendrogramSize d < i → getMergeLevel d i = .ok none := by
  unfold dendrogramSize at *
  obtain ⟨w1, w2⟩ := w
  refine ⟨fun i hi => ?_, fun i hi => ?_⟩
  · have hl : i < d.levels.length := by omega
    refine ⟨d.levels[i], List.getElem?_eq_getElem hl, ?_⟩
    unfold getMergeLevel
    rw [intArg_of (by omega)]
    dsimp only
    rw [if_neg (by omega), Int.toNat_natCast, List.getElem?_eq_getElem hl]
  · unfold getMergeLevel
    split
    · rfl
    · next j hj =>
      obtain ⟨rfl, -⟩ := intArg_some hj
      rw [if_pos (by omega)]

/-- What is missing in C111: in every dendrogram, the positions size minus one and size are accepted, and memory beyond the array
is read. -/
theorem C111_not_levels {α : Type} (d : Cluster.Dendrogram α) (w : d.WF) (hs : dendrogramSize d ≤ 2147483647) :
    getMergeLevel d (dendrogramSize d - 1) = .ub ∧ getMergeLevel d (dendrogramSize d) = .ub := by
  unfold dendrogramSize at *
  obtain ⟨w1, w2⟩ := w
  have hpos : 0 < d.order.length := List.length_pos_iff.2 w1
  constructor
  · unfold getMergeLevel
    rw [intArg_of (by omega)]
    dsimp only
    rw [if_neg (by omega), List.getElem?_eq_none (by omega)]
  · unfold getMergeLevel
    rw [intArg_of (by omega)]
    dsimp only
    rw [if_neg (by omega), List.getElem?_eq_none (by omega)]

/-- **C111.** `cut` raises an exception only if the minimal size does not fit into `int`; otherwise it gives what the library gives (C11). -/
theorem C111_cut {α : Type} (le : α → α → Bool) (d : Cluster.Dendrogram α) (w : d.WF) (level : α) (k : Int) :
    (¬ (-2147483648 ≤ k ∧ k ≤ 2147483647) ∧ dendrogramCut le d level k = .ok none) ∨
    ∃ cs, dendrogramCut le d level k = .ok (some cs) ∧ Cluster.cut le d level k = .ok cs ∧
      (∀ x, x ∈ cs ↔ ∃ a b, Cluster.MaxRun le d level a b ∧ k ≤ (b : Int) - a + 1 ∧ x = Cluster.slice d a b) := by
  unfold dendrogramCut
  by_cases h : -2147483648 ≤ k ∧ k ≤ 2147483647
  · obtain ⟨cs, h1, h2, -⟩ := Cluster.C11_cut (le := le) w level k
    exact .inr ⟨cs, by rw [intArg_of h]; dsimp only; rw [h1]; rfl, h1, h2⟩
  · exact .inl ⟨h, by unfold intArg; rw [if_neg h]⟩

example : (Cluster.Dendrogram.mk [1, 0, 2] [5, 6]).WF ∧ getMergeLevel (Cluster.Dendrogram.mk [1, 0, 2] [5, 6]) 1 = .ok (some 6) ∧
    getObject (Cluster.Dendrogram.mk [1, 0, 2] [5, 6]) 2 = .ok (some 2) := ⟨⟨by simp, rfl⟩, rfl, rfl⟩

end Satyr.Py
