import Verif.Distances.Spec
import Verif.Distances.Parts
import Mathlib.Data.List.Nodup
import Mathlib.Data.List.Range
/-!
# Properties C01 - C04: distance matrix, parts, merging
-/
namespace Satyr.Distances

/-! ## C01 -/

theorem set_ok {α} {d : Matrix α} (w : WF d) {i j : Nat} {v : α} (h : InRange d.m d.n i j) :
    set d i j v = .ok (writeAll d [((min i j, max i j), v)]) := by
  obtain ⟨h1, h2, h3⟩ := h
  unfold set
  rw [if_neg h1]
  rcases Nat.lt_or_ge j i with hlt | hge
  · rw [if_pos hlt]
    simp only
    rw [storeAt_ok w hlt (by omega) (by omega), Nat.min_eq_right (by omega), Nat.max_eq_left (by omega)]
    rfl
  · rw [if_neg (by omega)]
    simp only
    rw [storeAt_ok w (by omega) (by omega) (by omega), Nat.min_eq_left (by omega), Nat.max_eq_right (by omega)]
    rfl

theorem get_eq {α} (zero : α) {d : Matrix α} (i j : Nat) :
    get zero d i j = if i = j then .ok zero else
      if InRange d.m d.n i j then
        match slot d (min i j) (max i j) with | some v => .ok v | none => .ub
      else .abort := by
  unfold get
  split
  · rfl
  next hne =>
  have key : ∀ a b, a < b → (if posOk d.m d.n a b = true then load d (position d.n a b) else Out.abort) =
      if a < d.m ∧ b < d.n then (match slot d a b with | some v => .ok v | none => .ub) else .abort := by
    intro a b hab
    simp only [posOk, hab, decide_true, Bool.true_and, Bool.and_eq_true, decide_eq_true_eq]
    split
    · next h => rw [load_eq hab h.2]; rfl
    · rfl
  rcases Nat.lt_or_ge j i with hlt | hge
  · rw [if_pos hlt]
    simp only [InRange, Nat.min_eq_right (Nat.le_of_lt hlt), Nat.max_eq_left (Nat.le_of_lt hlt)]
    rw [key _ _ hlt]
    simp [hne]
  · have hlt : i < j := by omega
    rw [if_neg (by omega)]
    simp only [InRange, Nat.min_eq_left hge, Nat.max_eq_right hge]
    rw [key _ _ hlt]
    simp [hne]

theorem runSets_slots {α} {d : Matrix α} (w : WF d) (ops : List (Nat × Nat × α))
    (h : ∀ op ∈ ops, op.1 = op.2.1 ∨ InRange d.m d.n op.1 op.2.1) :
    ∃ d', runSets d ops = .ok d' ∧ WF d' ∧ d'.m = d.m ∧ d'.n = d.n ∧
      ∀ i j, i ≠ j → InRange d.m d.n i j → slot d' (min i j) (max i j) =
        match lastSet ops i j with | some v => some v | none => slot d (min i j) (max i j) := by
  induction ops generalizing d with
  | nil => exact ⟨d, rfl, w, rfl, rfl, fun i j _ _ => rfl⟩
  | cons op ops ih =>
    obtain ⟨a, b, v⟩ := op
    rcases h (a, b, v) (by simp) with heq | hr
    · simp only at heq; subst heq
      obtain ⟨d', e, w', hm, hn, hs⟩ := ih w (fun op hop => h op (by simp [hop]))
      refine ⟨d', ?_, w', hm, hn, ?_⟩
      · rw [runSets, List.foldlM_cons]
        simp only [set, if_true, Out.bind_ok]
        exact e
      · intro i j hij hr
        rw [hs i j hij hr]
        simp only [lastSet]
        rcases lastSet ops i j with _ | v'
        · simp only
          rw [if_neg (by omega)]
        · rfl
    · simp only at hr
      have hd : WF (writeAll d [((min a b, max a b), v)]) := w.writeAll _
      obtain ⟨d', e, w', hm, hn, hs⟩ := ih hd (fun op hop => h op (by simp [hop]))
      refine ⟨d', ?_, w', hm, hn, ?_⟩
      · rw [runSets, List.foldlM_cons]
        simp only [set_ok w hr, Out.bind_ok]
        exact e
      · intro i j hij hr'
        rw [hs i j hij hr']
        simp only [lastSet]
        rcases lastSet ops i j with _ | v'
        · simp only
          have := slot_set w (i := min a b) (j := max a b) (i' := min i j) (j' := max i j)
            (by have := hr.1; omega) hr.2.1 hr.2.2 (by omega) hr'.2.2 v
          rw [show writeAll d [((min a b, max a b), v)] =
            { d with data := d.data.set (position d.n (min a b : Nat) (max a b : Nat)).toNat (some v) } from rfl, this]
          have hiff : (min i j = min a b ∧ max i j = max a b) ↔ (a = i ∧ b = j ∨ a = j ∧ b = i) := by omega
          simp only [hiff]
          split <;> rfl
        · rfl

/-- **C01.** On a matrix made by `sr_distances_new`, any history of `set` calls on stored pairs (or on equal
indices) succeeds - no access leaves the array - and afterwards `get i j` is zero on the diagonal, the most
recently set value of the unordered pair `{i, j}` elsewhere, and an uninitialised read only if the pair was
never set. -/
theorem C01_get_after_history {α} (zero : α) {m n : Int} {d : Matrix α} (hd : new α m n = .ok d)
    (ops : List (Nat × Nat × α))
    (hops : ∀ op ∈ ops, op.1 = op.2.1 ∨ InRange d.m d.n op.1 op.2.1) :
    ∃ d', runSets d ops = .ok d' ∧
      ∀ i j, get zero d' i j =
        if i = j then .ok zero
        else if InRange d.m d.n i j then
          match lastSet ops i j with
          | some v => .ok v
          | none => .ub
        else .abort := by
  obtain ⟨w, -, -, hun⟩ := new_ok hd
  obtain ⟨d', e, w', hm, hn, hs⟩ := runSets_slots w ops hops
  refine ⟨d', e, fun i j => ?_⟩
  rw [get_eq, hm, hn]
  split
  · rfl
  next hij =>
  split
  · next hr =>
    rw [hs i j hij hr]
    rcases lastSet ops i j with _ | v
    · simp only
      have : slot d (min i j) (max i j) = none := by
        unfold slot
        rcases hun (position d.n (min i j : Nat) (max i j : Nat)).toNat with h | h <;> rw [h] <;> rfl
      rw [this]
    · rfl
  · rfl

/-- **C01.** Reads are symmetric, for every matrix. -/
theorem C01_get_symm {α} (zero : α) (d : Matrix α) (i j : Nat) : get zero d i j = get zero d j i := by
  rw [get_eq, get_eq]
  by_cases h : i = j
  · simp [h]
  · rw [if_neg h, if_neg (Ne.symm h), Nat.min_comm, Nat.max_comm]
    simp only [InRange, Nat.min_comm, Nat.max_comm, ne_comm]

/-- **C01.** `sr_distances_new` succeeds exactly for at least one row and two columns; the number of stored
rows is `min m (n-1)`. -/
theorem C01_new_iff (α) (m n : Int) :
    (∃ d, new α m n = .ok d ∧ (d.m : Int) = min m (n - 1) ∧ (d.n : Int) = n) ↔ 0 < m ∧ 1 < n := by
  constructor
  · rintro ⟨d, h, h1, h2⟩
    have := (new_ok h).1.mpos
    have := (new_ok h).1.mlt
    omega
  · rintro ⟨h1, h2⟩
    obtain ⟨d, h⟩ := new_isOk α (m := m.toNat) (n := n.toNat) (by omega) (by omega)
    have e1 : ((m.toNat : Nat) : Int) = m := by omega
    have e2 : ((n.toNat : Nat) : Int) = n := by omega
    rw [e1, e2] at h
    obtain ⟨-, h3, h4, -⟩ := new_ok h
    exact ⟨d, h, by omega, by omega⟩

/-- **C01.** `sr_distances_dup` of a matrix built by `new` and `set`s is an equal matrix. -/
theorem C01_dup {α} {m n : Int} {d d' : Matrix α} (hd : new α m n = .ok d) (ops : List (Nat × Nat × α))
    (hops : ∀ op ∈ ops, op.1 = op.2.1 ∨ InRange d.m d.n op.1 op.2.1) (h : runSets d ops = .ok d') :
    dup d' = .ok d' := by
  obtain ⟨w, -, -, -⟩ := new_ok hd
  obtain ⟨d'', e, w', hm, hn, -⟩ := runSets_slots w ops hops
  rw [h] at e; injection e with e; subst e
  have h1 := w'.mpos
  have h2 := w'.mlt
  have h3 := w'.len
  have e1 : ((d'.m - 1 : Nat) : Int) = d'.m - 1 := by omega
  have e2 : ((d'.n - 1 : Nat) : Int) = d'.n - 1 := by omega
  rw [e1, e2] at h3
  have e3 : (if (d'.m : Int) ≥ d'.n then (d'.n : Int) - 1 else d'.m) = d'.m := by rw [if_neg (by omega)]
  unfold dup new
  rw [e3]
  simp only
  rw [if_pos (by omega)]
  simp only [Out.bind_ok, List.length_replicate]
  rw [← h3, if_pos (by simp)]
  simp

/-- Non-vacuity of C01: a 2×3 matrix, setting one pair twice in both orders, and another pair. -/
example : ∃ d d' : Matrix Nat, new Nat 2 3 = .ok d ∧ runSets d [(0, 1, 5), (2, 1, 6), (1, 0, 7)] = .ok d' ∧
    get 0 d' 0 1 = .ok 7 ∧ get 0 d' 1 2 = .ok 6 ∧ get 0 d' 2 0 = .ub ∧ get 0 d' 2 2 = .ok 0 := by
  refine ⟨_, _, rfl, rfl, ?_, ?_, ?_, ?_⟩ <;> decide

/-- **C01, range of `int`.** With at most 46340 columns every intermediate value of the index computation
(squares, differences, the index itself) is a 32-bit `int` ... -/
theorem C01_no_int_overflow {n i j : Nat} (hn : n ≤ 46340) (hij : i < j) (hj : j < n) :
    (n : Int) * n < 2 ^ 31 ∧ ((n : Int) - i) * (n - i) < 2 ^ 31 ∧ 0 ≤ (n : Int) * n - n ∧
    0 ≤ ((n : Int) - i) * (n - i) - (n - i) ∧
    0 ≤ (n : Int) * n - n - (((n : Int) - i) * (n - i) - (n - i)) ∧
    0 ≤ position n i j ∧ position n i j < 2 ^ 31 := by
  have h1 : (n : Int) ≤ 46340 := by exact_mod_cast hn
  have h2 : (0 : Int) ≤ i := by omega
  have h3 : (i : Int) + 1 ≤ j := by exact_mod_cast hij
  have h4 : (j : Int) + 1 ≤ n := by exact_mod_cast hj
  have hs : (n : Int) * n ≤ 46340 * 46340 := by nlinarith
  have hp := two_position n i j
  refine ⟨by omega, by nlinarith, by nlinarith, by nlinarith, by nlinarith, position_nonneg hij hj, ?_⟩
  nlinarith

/-- ... and with 46341 columns the very first product overflows (undefined behaviour in C). -/
theorem C01_not_beyond_46340 : ¬ ((46341 : Int) * 46341 < 2 ^ 31) := by decide

/-! ## C02 -/

theorem visited_eq {p : Part (Nat × Nat)} (h : ∀ c ∈ p.cells, Cell p.m p.n c) :
    visited p = .ok p.cells := by
  unfold visited partCompute
  obtain ⟨ds, e⟩ := computeLoop_eq (fun i j : Nat => (i, j)) (List.range p.n) p.m p.n p.len (p.mBegin, p.nBegin)
    (by simp) h
  have e' := (computeLoop_ok e).2
  rw [e]
  simp only [Out.bind_ok, Option.getD_some]
  congr 1
  have hv : ∀ c ∈ cellsFrom p.n p.len (p.mBegin, p.nBegin),
      val (fun i j : Nat => (i, j)) (List.range p.n) c = some c := by
    intro c hc
    have hc := h c hc
    have : c.1 < p.n := by have := hc.1; have := hc.2; omega
    simp [val, this, hc.2.2]
  rw [List.map_congr_left hv] at e'
  have := congrArg (List.map (fun o : Option (Nat × Nat) => o.getD (0, 0))) e'
  simpa [Part.cells] using this.symm

theorem mapM_ok {α β : Type} (f : α → Out β) (g : α → β) (l : List α) (h : ∀ a ∈ l, f a = .ok (g a)) :
    l.mapM f = .ok (l.map g) := by
  induction l with
  | nil => rfl
  | cons a l ih =>
    rw [List.mapM_cons, h a (by simp), Out.bind_ok, ih (fun a ha => h a (by simp [ha]))]
    rfl

theorem loopPairs_nodup (m n : Nat) : (loopPairs m n).Nodup := by
  unfold loopPairs
  rw [List.nodup_flatMap]
  constructor
  · intro i _
    apply List.Nodup.map
    · intro a b h; simpa using h
    · exact List.nodup_range'
  · apply List.Nodup.pairwise_of_forall_ne List.nodup_range
    intro a _ b _ hab
    simp only [Function.onFun, List.disjoint_left, List.mem_map, not_exists, not_and]
    rintro ⟨x, y⟩ ⟨c, -, hc⟩ d - hd
    simp at hc hd; omega

/-- **C02.** For `m ≥ 1`, `n ≥ 2`, `nparts ≥ 1` the work division succeeds; walking the parts enumerates every
stored pair `(i, j)` (row `i < m`, `i < j < n`) exactly once; there are exactly `min nparts (number of pairs)`
parts, none is empty, and the lengths of any two parts differ by at most one. -/
theorem C02_cover_once_balanced (m n nparts : Nat) (ty : DistType) (hm : 1 ≤ m) (hn : 2 ≤ n)
    (hk : 1 ≤ nparts) :
    ∃ ps cs, partCreate (Nat × Nat) m n ty nparts = .ok ps ∧ ps.mapM visited = .ok cs ∧
      cs.flatten.Nodup ∧
      (∀ i j, (i, j) ∈ cs.flatten ↔ i < m ∧ i < j ∧ j < n) ∧
      ps.length = min nparts cs.flatten.length ∧
      (∀ p ∈ ps, 0 < p.len ∧ p.distType = ty) ∧
      (∀ p ∈ ps, ∀ q ∈ ps, p.len ≤ q.len + 1) := by
  have h0 : 0 < min m (n - 1) := by omega
  have he := partCreate_eq (Nat × Nat) ty h0 hk
  have hc := partCreate_cells (Nat × Nat) h0 hk he
  generalize hps : (List.range (min nparts (cells (min m (n - 1)) n))).map
    (mkPart (Nat × Nat) ty (min m (n - 1)) n (cells (min m (n - 1)) n) nparts) = ps at he hc
  have hmem : ∀ p ∈ ps, ∃ s < min nparts (cells (min m (n - 1)) n),
      p = mkPart (Nat × Nat) ty (min m (n - 1)) n (cells (min m (n - 1)) n) nparts s := by
    intro p hp
    rw [← hps, List.mem_map] at hp
    obtain ⟨s, hs, rfl⟩ := hp
    exact ⟨s, by simpa using hs, rfl⟩
  refine ⟨ps, ps.map Part.cells, he, ?_, ?_, ?_, ?_, ?_, ?_⟩
  · apply mapM_ok
    intro p hp
    apply visited_eq
    intro c hcp
    have hin : c ∈ ps.flatMap Part.cells := List.mem_flatMap.2 ⟨p, hp, hcp⟩
    rw [hc, mem_loopPairs] at hin
    obtain ⟨s, -, rfl⟩ := hmem p hp
    exact hin
  · rw [← List.flatMap_def, hc]; exact loopPairs_nodup _ _
  · intro i j
    rw [← List.flatMap_def, hc, mem_loopPairs]
    simp only [Cell]; omega
  · rw [← List.flatMap_def, hc, (loopPairs_eq_walk (by omega)).1, ← hps]
    simp
  · intro p hp
    obtain ⟨s, hs, rfl⟩ := hmem p hp
    refine ⟨?_, rfl⟩
    apply plen_pos (k := nparts)
    have h1 := pstart_min (N := cells (min m (n - 1)) n) hk
    -- the start of part `s` lies strictly before the end
    rcases Nat.eq_zero_or_pos (cells (min m (n - 1)) n / nparts) with h | h
    · have := Nat.div_add_mod (cells (min m (n - 1)) n) nparts
      unfold pstart
      rw [h] at this ⊢
      simp at this ⊢
      omega
    · have hd := Nat.div_add_mod (cells (min m (n - 1)) n) nparts
      have hle : (s + 1) * (cells (min m (n - 1)) n / nparts) ≤ nparts * (cells (min m (n - 1)) n / nparts) :=
        Nat.mul_le_mul_right _ (by omega)
      rw [Nat.succ_mul] at hle
      unfold pstart
      omega
  · intro p hp q hq
    obtain ⟨s, -, rfl⟩ := hmem p hp
    obtain ⟨t, -, rfl⟩ := hmem q hq
    simp only [mkPart, partNew, plen]
    generalize cells (min m (n - 1)) n / nparts = q
    split <;> split <;> omega

/-- Non-vacuity of C02. -/
example : (partCreate Nat 3 5 .levenshtein 4).bind (fun ps => .ok (ps.map fun p => (p.mBegin, p.nBegin, p.len))) =
    .ok [(0, 1, 3), (0, 4, 2), (1, 3, 2), (2, 3, 2)] := by decide

/-! ## C03 -/

/-- The writes of a whole computation. -/
def allWrites {α T} (dist : T → T → α) (threads : List T) (cs : List (Nat × Nat)) : List ((Nat × Nat) × α) :=
  cs.filterMap fun c => (val dist threads c).map fun v => (c, v)

theorem mem_allWrites {α T} {dist : T → T → α} {threads : List T} {cs : List (Nat × Nat)} {w : (Nat × Nat) × α} :
    w ∈ allWrites dist threads cs ↔ w.1 ∈ cs ∧ val dist threads w.1 = some w.2 := by
  obtain ⟨c, v⟩ := w
  simp only [allWrites, List.mem_filterMap, Option.map_eq_some_iff, Prod.mk.injEq]
  constructor
  · rintro ⟨a, ha, v', hv, rfl, rfl⟩; exact ⟨ha, hv⟩
  · rintro ⟨a, hv⟩; exact ⟨c, a, v, hv, rfl, rfl⟩

theorem allWrites_functional {α T} (dist : T → T → α) (threads : List T) (cs : List (Nat × Nat)) :
    Functional (allWrites dist threads cs) := by
  intro c v v' h h'
  have h := (mem_allWrites.1 h).2
  have h' := (mem_allWrites.1 h').2
  simp only at h h'
  rw [h] at h'; injection h'

theorem threadsCompare_eq {α T} (dist : T → T → α) (sameType : List T → Bool) (threads : List T) {m n : Nat}
    {d : Matrix α} (hd : new α m n = .ok d) (hs : sameType (threads.take n) = true) (hl : n ≤ threads.length) :
    threadsCompare dist sameType threads m n = .ok (writeAll d (allWrites dist threads (loopPairs m n))) := by
  obtain ⟨w, h1, h2, -⟩ := new_ok hd
  unfold threadsCompare
  rw [hd, Out.bind_ok, hs]
  simp only [Bool.not_true, Bool.false_eq_true, if_false]
  have hn : d.n = n := by omega
  have hcell : ∀ c ∈ loopPairs m n, Cell d.m d.n c := by
    intro c hc
    rw [mem_loopPairs] at hc
    obtain ⟨a, b, e⟩ := hc
    simp only [Cell]; omega
  rw [← foldlM_storeAt w]
  · generalize loopPairs m n = cs at hcell
    clear hd h1 h2 hs
    induction cs generalizing d with
    | nil => rfl
    | cons c cs ih =>
      have hc := hcell c (by simp)
      have hi : c.1 < threads.length := by have := hc.1; have := hc.2; omega
      have hj : c.2 < threads.length := by have := hc.2; omega
      have hv : val dist threads c = some (dist threads[c.1] threads[c.2]) := by
        unfold val; rw [List.getElem?_eq_getElem hi, List.getElem?_eq_getElem hj]
      simp only [allWrites, List.filterMap_cons, hv, Option.map_some]
      rw [List.foldlM_cons, List.foldlM_cons]
      simp only [List.getElem?_eq_getElem hi, List.getElem?_eq_getElem hj]
      rw [storeAt_ok w hc.1 hc.2.1 hc.2.2, Out.bind_ok, Out.bind_ok]
      exact ih (w.set _ _) hn (fun c' hc' => hcell c' (by simp [hc']))
  · intro c hc; exact hcell _ (mem_allWrites.1 hc).1

/-- What a part contributes to the merged matrix. -/
def Part.writes {α} (p : Part α) : List ((Nat × Nat) × α) := p.cells.zip (p.distances.getD [])

/-- A part that merging into an `m × n` matrix with the given checksum accepts. -/
structure Part.Good {α} (M N cs : Nat) (p : Part α) : Prop where
  m : p.m = M
  n : p.n = N
  cs : p.checksum = cs
  ds : ∃ ds, p.distances = some ds
  cells : ∀ c ∈ p.cells, Cell M N c

theorem mergeParts_ok {α} {m n cs : Nat} (ps : List (Part α)) {d : Matrix α} (w : WF d) (hm : d.m = m)
    (hn : d.n = n) (hc : ∀ p ∈ ps, p.Complete) (h : ∀ p ∈ ps, p.Good m n cs) :
    mergeParts m n cs ps d = .ok (some (writeAll d (ps.flatMap Part.writes))) := by
  induction ps generalizing d with
  | nil => rfl
  | cons p ps ih =>
    have g := h p (by simp)
    obtain ⟨ds, hds⟩ := g.ds
    unfold mergeParts
    rw [if_neg (by simp [g.m, g.n, g.cs]), hds]
    simp only
    rw [g.m, g.n]
    have := mergeLoop_eq w p.len ds (p.mBegin, p.nBegin) (by rw [hc p (by simp) ds hds])
      (by intro c hcc; rw [hm, hn]; exact g.cells c (by rw [Part.cells, g.n, ← hn]; exact hcc))
    rw [hm, hn] at this
    rw [this]
    simp only [Out.bind_ok]
    rw [ih (w.writeAll _) hm hn (fun p hp => hc p (by simp [hp])) (fun p hp => h p (by simp [hp])),
      ← writeAll_append]
    simp only [List.flatMap_cons, Part.writes, hds, Option.getD_some, Part.cells, g.n]

theorem mergeParts_none {α} {m n cs : Nat} (ps : List (Part α)) {d : Matrix α} (w : WF d) (hm : d.m = m)
    (hn : d.n = n) (hc : ∀ p ∈ ps, p.Complete) (h : ¬ ∀ p ∈ ps, p.Good m n cs) :
    mergeParts m n cs ps d = .ok none := by
  induction ps generalizing d with
  | nil => exact absurd (by simp) h
  | cons p ps ih =>
    unfold mergeParts
    split
    · rfl
    next hp =>
    split
    · rfl
    next ds hds =>
    have hpm : p.m = m := by by_contra hh; exact hp (Or.inl hh)
    have hpn : p.n = n := by by_contra hh; exact hp (Or.inr (Or.inl hh))
    have hpc : p.checksum = cs := by by_contra hh; exact hp (Or.inr (Or.inr hh))
    rw [hpm, hpn]
    by_cases hcell : ∀ c ∈ p.cells, Cell m n c
    · have := mergeLoop_eq w p.len ds (p.mBegin, p.nBegin) (by rw [hc p (by simp) ds hds])
        (by intro c hcc; rw [hm, hn]; exact hcell c (by rw [Part.cells, hpn, ← hn]; exact hcc))
      rw [hm, hn] at this
      rw [this]
      simp only [Out.bind_ok]
      apply ih (w.writeAll _) hm hn (fun p hp => hc p (by simp [hp]))
      intro hall
      apply h
      intro q hq
      rcases List.mem_cons.1 hq with rfl | hq
      · exact ⟨hpm, hpn, hpc, ⟨ds, hds⟩, hcell⟩
      · exact hall q hq
    · have := mergeLoop_none w p.len ds (p.mBegin, p.nBegin) (by rw [hc p (by simp) ds hds])
        (by intro hh; apply hcell; intro c hcc; rw [hm, hn] at hh; exact hh c (by rw [Part.cells, hpn] at hcc; exact hcc))
      rw [hm, hn] at this
      rw [this]
      rfl

theorem partCompute_spec {α T} {dist : DistType → T → T → α} {checksum : List T → Nat} {threads : List T}
    {p p' : Part α} (h : partCompute dist checksum threads p = .ok p') :
    p'.m = p.m ∧ p'.n = p.n ∧ p'.distType = p.distType ∧ p'.cells = p.cells ∧ p'.Complete ∧
      p'.checksum = checksum (threads.take p.n) ∧ (∀ c ∈ p.cells, Cell p.m p.n c) ∧
      (∃ ds, p'.distances = some ds) ∧ p'.writes = allWrites (dist p.distType) threads p.cells := by
  unfold partCompute at h
  rcases hr : computeLoop (dist p.distType) threads p.m p.n p.len p.mBegin p.nBegin with ds | _ | _
  · rw [hr] at h
    simp only [Out.bind_ok, Out.ok.injEq] at h
    obtain ⟨a, b⟩ := computeLoop_ok (c := (p.mBegin, p.nBegin)) hr
    subst h
    refine ⟨rfl, rfl, rfl, rfl, ?_, rfl, a, ⟨ds, rfl⟩, ?_⟩
    · intro ds' hds'
      simp only [Option.some.injEq] at hds'
      subst hds'
      have := congrArg List.length b
      simpa using this.symm
    · simp only [Part.writes, Part.cells, Option.getD_some, allWrites]
      generalize cellsFrom p.n p.len (p.mBegin, p.nBegin) = cs at b
      clear hr a
      induction cs generalizing ds with
      | nil => simp
      | cons c cs ih =>
        rcases ds with _ | ⟨v, ds⟩
        · simp at b
        · simp only [List.map_cons, List.cons.injEq] at b
          simp only [List.zip_cons_cons, List.filterMap_cons, b.1, Option.map_some]
          rw [ih ds b.2]
  · simp [hr] at h
  · simp [hr] at h

/-- **C03.** For every array of at least `n` threads, every `m ≥ 1`, `n ≥ 2`, every number of parts and every
distance function: creating the parts, computing each and merging gives exactly the matrix that
`sr_threads_compare` gives, and its entry for each pair is the distance of the two threads. -/
theorem C03_split_compute_merge {α T} (zero : α) (dist : DistType → T → T → α) (checksum : List T → Nat)
    (sameType : List T → Bool) (threads : List T) (m n nparts : Nat) (ty : DistType)
    (hm : 1 ≤ m) (hn : 2 ≤ n) (hk : 1 ≤ nparts) (hlen : n ≤ threads.length)
    (hty : sameType (threads.take n) = true) :
    ∃ d, threadsCompare (dist ty) sameType threads m n = .ok d ∧
      splitComputeMerge dist checksum threads m n ty nparts = .ok (some d) ∧
      ∀ i j a b, i < m → i < j → j < n → threads[i]? = some a → threads[j]? = some b →
        get zero d i j = .ok (dist ty a b) := by
  obtain ⟨d, hd⟩ := new_isOk α (m := m) (n := n) (by omega) (by omega)
  obtain ⟨w, h1, h2, -⟩ := new_ok hd
  have hdm : d.m = min m (n - 1) := by omega
  have hdn : d.n = n := by omega
  have hcm : ∀ c, c ∈ loopPairs m n ↔ c ∈ loopPairs (min m (n - 1)) n := by
    intro c; rw [mem_loopPairs, mem_loopPairs]; simp only [Cell]; omega
  have hcell : ∀ c ∈ loopPairs (min m (n - 1)) n, Cell d.m d.n c := by
    intro c hc; rw [hdm, hdn]; exact mem_loopPairs.1 hc
  refine ⟨_, threadsCompare_eq (dist ty) sameType threads hd hty hlen, ?_, ?_⟩
  · have h0 : 0 < min m (n - 1) := by omega
    have he := partCreate_eq α ty h0 hk
    have hc := partCreate_cells α h0 hk he
    generalize hps : (List.range (min nparts (cells (min m (n - 1)) n))).map
      (mkPart α ty (min m (n - 1)) n (cells (min m (n - 1)) n) nparts) = ps at he hc
    have hmem : ∀ p ∈ ps, p.m = min m (n - 1) ∧ p.n = n ∧ p.distType = ty := by
      intro p hp
      rw [← hps, List.mem_map] at hp
      obtain ⟨s, hs, rfl⟩ := hp
      exact ⟨rfl, rfl, rfl⟩
    have hcomp : ∀ p ∈ ps, ∃ p', partCompute dist checksum threads p = .ok p' := by
      intro p hp
      have hcp : ∀ c ∈ cellsFrom p.n p.len (p.mBegin, p.nBegin), Cell p.m p.n c := by
        intro c hcc
        have : c ∈ ps.flatMap Part.cells := List.mem_flatMap.2 ⟨p, hp, hcc⟩
        rw [hc, mem_loopPairs] at this
        rw [(hmem p hp).1, (hmem p hp).2.1]; exact this
      obtain ⟨ds, e⟩ := computeLoop_eq (dist p.distType) threads p.m p.n p.len (p.mBegin, p.nBegin)
        (by rw [(hmem p hp).2.1]; exact hlen) hcp
      exact ⟨_, by unfold partCompute; rw [e]; rfl⟩
    unfold splitComputeMerge
    rw [he, Out.bind_ok]
    -- choose the computed parts
    let g : Part α → Part α := fun p => match partCompute dist checksum threads p with | .ok p' => p' | _ => p
    have hg : ∀ p ∈ ps, partCompute dist checksum threads p = .ok (g p) := by
      intro p hp
      obtain ⟨p', e⟩ := hcomp p hp
      simp only [g, e]
    rw [mapM_ok _ g ps hg, Out.bind_ok]
    have hne : ps ≠ [] := by
      intro h
      have hz : (0, 1) ∈ loopPairs (min m (n - 1)) n := mem_loopPairs.2 ⟨by simp, by simpa using h0, by simp only; omega⟩
      rw [← hc, h] at hz; simp at hz
    have hgood : ∀ p ∈ ps.map g, p.Good (min m (n - 1)) n (checksum (threads.take n)) ∧ p.Complete := by
      intro p hp
      obtain ⟨p0, hp0, rfl⟩ := List.mem_map.1 hp
      obtain ⟨a1, a2, a3, a4, a5, a6, a7, a8, a9⟩ := partCompute_spec (hg p0 hp0)
      obtain ⟨b1, b2, b3⟩ := hmem p0 hp0
      exact ⟨⟨a1.trans b1, a2.trans b2, by rw [a6, b2], a8, by rw [a4, ← b1, ← b2]; exact a7⟩, a5⟩
    have hw : (ps.map g).flatMap Part.writes = allWrites (dist ty) threads (loopPairs (min m (n - 1)) n) := by
      rw [← hc]
      clear hc hps he hcomp hgood hne
      induction ps with
      | nil => rfl
      | cons p ps ih =>
        rw [List.map_cons, List.flatMap_cons, List.flatMap_cons,
          ih (fun p hp => hmem p (by simp [hp])) (fun p hp => hg p (by simp [hp])),
          (partCompute_spec (hg p (by simp))).2.2.2.2.2.2.2.2, (hmem p (by simp)).2.2]
        simp [allWrites]
    rcases hgm : ps.map g with _ | ⟨p, rest⟩
    · simp at hgm; exact absurd hgm hne
    · have gp := hgood p (by rw [hgm]; simp)
      have hnew : new α ((p.m : Nat) : Int) (p.n : Nat) = .ok d := by
        rw [gp.1.m, gp.1.n, ← hd]
        unfold new
        have : (if (m : Int) ≥ n then (n : Int) - 1 else m) = ((min m (n - 1) : Nat) : Int) := by
          split <;> omega
        have h3 : (if (((min m (n - 1) : Nat) : Int)) ≥ n then (n : Int) - 1 else ((min m (n - 1) : Nat) : Int)) =
          ((min m (n - 1) : Nat) : Int) := if_neg (by omega)
        rw [this, h3]
      unfold partMerge
      simp only
      rw [hnew, Out.bind_ok, gp.1.m, gp.1.n, gp.1.cs, ← hgm,
        mergeParts_ok _ w hdm hdn (fun p hp => (hgood p hp).2) (fun p hp => (hgood p hp).1), hw]
      congr 2
      apply writeAll_congr
      · intro c hcc; exact hcell _ (mem_allWrites.1 hcc).1
      · exact allWrites_functional _ _ _
      · intro c; rw [mem_allWrites, mem_allWrites, hcm]
  · intro i j a b hi hij hj ha hb
    have hr : InRange d.m d.n i j := by unfold InRange; omega
    have hdw : InRange (writeAll d (allWrites (dist ty) threads (loopPairs m n))).m
      (writeAll d (allWrites (dist ty) threads (loopPairs m n))).n i j := hr
    rw [get_eq, if_neg (by omega), if_pos hdw, Nat.min_eq_left (by omega), Nat.max_eq_right (by omega)]
    rw [slot_writeAll w (v := dist ty a b)]
    · intro c hcc; exact hcell _ ((hcm _).1 (mem_allWrites.1 hcc).1)
    · exact allWrites_functional _ _ _
    · rw [mem_allWrites]
      exact ⟨mem_loopPairs.2 ⟨hij, hi, hj⟩, by simp [val, ha, hb]⟩

/-- Non-vacuity of C03: four "threads" (numbers), distance = sum, split in 4 parts. -/
example : splitComputeMerge (fun _ a b => a + b) (fun l => l.length) [1, 10, 100, 1000] 2 4 .jaccard 4 =
    .ok (some { m := 2, n := 4, data := [some 11, some 101, some 1001, none, some 110, some 1010] }) := by
  decide

/-! ## C04 -/

/-- **C04.** Order independence: for every list of parts with valid dimensions, each either computed or not,
such that no two of them assign different values to one pair, every permutation of the list gives the same
result (the same matrix, or NULL). -/
theorem C04_order_independent {α} {l l' : List (Part α)} (hp : l.Perm l')
    (hdim : ∀ p ∈ l, 0 < p.m ∧ p.m < p.n) (hcomp : ∀ p ∈ l, p.Complete)
    (hcons : ∀ p ∈ l, ∀ q ∈ l, ∀ c v v', (c, v) ∈ p.writes → (c, v') ∈ q.writes → v = v') :
    partMerge l = partMerge l' := by
  have key : ∀ (p : Part α) (ps : List (Part α)), (∀ q ∈ p :: ps, 0 < q.m ∧ q.m < q.n) → (∀ q ∈ p :: ps, q.Complete) →
      ∃ d, new α p.m p.n = .ok d ∧ WF d ∧ d.m = p.m ∧ d.n = p.n ∧
      (((∀ q ∈ p :: ps, q.Good p.m p.n p.checksum) ∧
        partMerge (p :: ps) = .ok (some (writeAll d ((p :: ps).flatMap Part.writes)))) ∨
       ((¬ ∀ q ∈ p :: ps, q.Good p.m p.n p.checksum) ∧ partMerge (p :: ps) = .ok none)) := by
    intro p ps hdim hcomp
    have h := hdim p (by simp)
    obtain ⟨d, hd⟩ := new_isOk α (m := p.m) (n := p.n) (by omega) (by omega)
    obtain ⟨w, h1, h2, -⟩ := new_ok hd
    refine ⟨d, hd, w, by omega, by omega, ?_⟩
    unfold partMerge
    simp only
    rw [hd, Out.bind_ok]
    by_cases hg : ∀ q ∈ p :: ps, q.Good p.m p.n p.checksum
    · left; exact ⟨hg, mergeParts_ok _ w (by omega) (by omega) hcomp hg⟩
    · right; exact ⟨hg, mergeParts_none _ w (by omega) (by omega) hcomp hg⟩
  rcases l with _ | ⟨p, ps⟩
  · rw [List.nil_perm.1 hp]
  rcases l' with _ | ⟨p', ps'⟩
  · simp at hp
  have hmem : ∀ q, q ∈ p :: ps ↔ q ∈ p' :: ps' := fun q => hp.mem_iff
  obtain ⟨d, hd, w, hm, hn, h⟩ := key p ps hdim hcomp
  obtain ⟨d', hd', w', hm', hn', h'⟩ := key p' ps' (fun q hq => hdim q ((hmem q).2 hq)) (fun q hq => hcomp q ((hmem q).2 hq))
  have trans : ∀ a b : Part α, ∀ L L' : List (Part α), (∀ q, q ∈ L ↔ q ∈ L') → a ∈ L → b ∈ L →
      (∀ q ∈ L, q.Good a.m a.n a.checksum) → ∀ q ∈ L', q.Good b.m b.n b.checksum := by
    intro a b L L' hL ha hb hg q hq
    have gb := hg b hb
    have gq := hg q ((hL q).2 hq)
    rw [gb.m, gb.n, gb.cs]; exact gq
  rcases h with ⟨hg, e⟩ | ⟨hg, e⟩ <;> rcases h' with ⟨hg', e'⟩ | ⟨hg', e'⟩
  · rw [e, e']
    have g := hg p' ((hmem p').2 (by simp))
    rw [g.m, g.n, hd] at hd'
    injection hd' with hd'
    subst hd'
    congr 2
    apply writeAll_congr
    · intro c hc
      obtain ⟨q, hq, hcq⟩ := List.mem_flatMap.1 hc
      rw [hm, hn]
      exact (hg q hq).cells _ (List.of_mem_zip hcq).1
    · intro c v v' h1 h2
      obtain ⟨q, hq, hcq⟩ := List.mem_flatMap.1 h1
      obtain ⟨q', hq', hcq'⟩ := List.mem_flatMap.1 h2
      exact hcons q hq q' hq' c v v' hcq hcq'
    · intro c
      simp only [List.mem_flatMap, hmem]
  · exact absurd (trans p p' _ _ hmem (by simp) ((hmem p').2 (by simp)) hg) hg'
  · exact absurd (trans p' p _ _ (fun q => (hmem q).symm) (by simp) ((hmem p).1 (by simp)) hg') hg
  · rw [e, e']

/-- **C04.** Parts computed from one array of threads with one distance type: every permutation merges to the
same matrix. -/
theorem C04_order_independent_computed {α T} (dist : DistType → T → T → α) (checksum : List T → Nat)
    (threads : List T) (ty : DistType) {l l' : List (Part α)} (hp : l.Perm l')
    (hdim : ∀ p ∈ l, 0 < p.m ∧ p.m < p.n) (hty : ∀ p ∈ l, p.distType = ty)
    (hc : ∀ p ∈ l, Computed dist checksum threads p) : partMerge l = partMerge l' := by
  apply C04_order_independent hp hdim
  · intro p hp
    obtain ⟨p0, h⟩ := hc p hp
    exact (partCompute_spec h).2.2.2.2.1
  · intro p hp q hq c v v' h1 h2
    obtain ⟨p0, h⟩ := hc p hp
    obtain ⟨q0, h'⟩ := hc q hq
    have s := partCompute_spec h
    have s' := partCompute_spec h'
    rw [s.2.2.2.2.2.2.2.2, mem_allWrites, ← s.2.2.1, hty p hp] at h1
    rw [s'.2.2.2.2.2.2.2.2, mem_allWrites, ← s'.2.2.1, hty q hq] at h2
    have := h1.2.symm.trans h2.2
    injection this

/-- **C04.** Rejection: merging a list whose first part has valid dimensions returns NULL as soon as some part
was not computed, or has other dimensions or another checksum than the first one. -/
theorem C04_rejects {α} {p q : Part α} {ps : List (Part α)} (hdim : 0 < p.m ∧ p.m < p.n)
    (hcomp : ∀ r ∈ p :: ps, r.Complete) (hq : q ∈ p :: ps)
    (hbad : q.distances = none ∨ q.m ≠ p.m ∨ q.n ≠ p.n ∨ q.checksum ≠ p.checksum) :
    partMerge (p :: ps) = .ok none := by
  obtain ⟨d, hd⟩ := new_isOk α (m := p.m) (n := p.n) (by omega) (by omega)
  obtain ⟨w, h1, h2, -⟩ := new_ok hd
  unfold partMerge
  simp only
  rw [hd, Out.bind_ok]
  apply mergeParts_none _ w (by omega) (by omega) hcomp
  intro hall
  have g := hall q hq
  rcases hbad with h | h | h | h
  · obtain ⟨ds, e⟩ := g.ds; rw [h] at e; simp at e
  · exact h g.m
  · exact h g.n
  · exact h g.cs

/-- **C04.** NULL is returned *only* for such lists (or an empty one) when the parts come from
`sr_distances_part_compute`. -/
theorem C04_null_iff {α T} (dist : DistType → T → T → α) (checksum : List T → Nat)
    {p : Part α} {ps : List (Part α)} (hdim : 0 < p.m ∧ p.m < p.n)
    (hc : ∀ q ∈ p :: ps, q.distances ≠ none → ∃ threads, Computed dist checksum threads q) :
    partMerge (p :: ps) = .ok none ↔
      ∃ q ∈ p :: ps, q.distances = none ∨ q.m ≠ p.m ∨ q.n ≠ p.n ∨ q.checksum ≠ p.checksum := by
  have hcomp : ∀ r ∈ p :: ps, r.Complete := by
    intro r hr ds hds
    obtain ⟨th, r0, h⟩ := hc r hr (by rw [hds]; simp)
    exact (partCompute_spec h).2.2.2.2.1 ds hds
  constructor
  · intro h
    by_contra hno
    obtain ⟨d, hd⟩ := new_isOk α (m := p.m) (n := p.n) (by omega) (by omega)
    obtain ⟨w, h1, h2, -⟩ := new_ok hd
    unfold partMerge at h
    simp only at h
    rw [hd, Out.bind_ok, mergeParts_ok _ w (by omega) (by omega) hcomp] at h
    · simp at h
    · intro q hq
      have hn : ¬ (q.distances = none ∨ q.m ≠ p.m ∨ q.n ≠ p.n ∨ q.checksum ≠ p.checksum) :=
        fun hh => hno ⟨q, hq, hh⟩
      simp only [not_or, not_not] at hn
      obtain ⟨a, b, c, e⟩ := hn
      obtain ⟨th, q0, hq0⟩ := hc q hq a
      have s := partCompute_spec hq0
      refine ⟨b, c, e, s.2.2.2.2.2.2.2.1, ?_⟩
      rw [← b, ← c, s.1, s.2.1, s.2.2.2.1]
      exact s.2.2.2.2.2.2.1
  · rintro ⟨q, hq, hb⟩
    exact C04_rejects hdim hcomp hq hb

/-- Non-vacuity of C04: two parts merged in both orders, and a rejected list. -/
example : partMerge [⟨1, 3, 0, 2, 1, .jaccard, 7, some ['b']⟩, ⟨1, 3, 0, 1, 1, .jaccard, 7, some ['a']⟩] =
      .ok (some ⟨1, 3, [some 'a', some 'b']⟩) ∧
    partMerge [⟨1, 3, 0, 1, 1, .jaccard, 7, some ['a']⟩, ⟨1, 3, 0, 2, 1, .jaccard, 7, some ['b']⟩] =
      .ok (some ⟨1, 3, [some 'a', some 'b']⟩) ∧
    partMerge [⟨1, 3, 0, 1, 1, .jaccard, 7, some ['a']⟩, ⟨1, 3, 0, 2, 1, .jaccard, 8, some ['b']⟩] =
      .ok none := by decide

/-- **C04, finding.** The distance type is *not* compared: parts computed with different metrics are merged
into one matrix. -/
theorem C04_not_distance_type_checked :
    ∃ p q : Part Nat, p.distType ≠ q.distType ∧ (∃ d, partMerge [p, q] = .ok (some d)) ∧
      Computed (fun ty _ _ => if ty = .jaccard then 1 else 2) (fun l => l.length) [(), (), ()] p ∧
      Computed (fun ty _ _ => if ty = .jaccard then 1 else 2) (fun l => l.length) [(), (), ()] q :=
  ⟨⟨1, 3, 0, 1, 1, .jaccard, 3, some [1]⟩, ⟨1, 3, 0, 2, 1, .levenshtein, 3, some [2]⟩, by decide,
    ⟨_, rfl⟩, ⟨⟨1, 3, 0, 1, 1, .jaccard, 0, none⟩, rfl⟩, ⟨⟨1, 3, 0, 2, 1, .levenshtein, 0, none⟩, rfl⟩⟩

end Satyr.Distances
