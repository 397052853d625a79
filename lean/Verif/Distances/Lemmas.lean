import Verif.Distances.Model
import Mathlib.Tactic.Ring
import Mathlib.Data.List.Induction
import Mathlib.Tactic.Linarith
/-! Helper lemmas for the distance matrix. -/
namespace Satyr.Distances

theorem even_mul_succ (i : Nat) : ∃ k : Int, (i : Int) * (i + 1) = 2 * k := by
  induction i with
  | zero => exact ⟨0, by simp⟩
  | succ i ih =>
    obtain ⟨k, hk⟩ := ih
    refine ⟨k + i + 1, ?_⟩
    push_cast; linarith [hk, mul_comm (i:Int) (i+1), (by ring : ((i:Int)+1)*(i+1+1) = i*(i+1) + 2*(i+1))]

/-- Closed form of the index. -/
theorem two_position (n i j : Nat) :
    2 * position n i j = 2 * n * i - i * (i + 1) + 2 * j - 2 := by
  obtain ⟨k, hk⟩ := even_mul_succ i
  have e : ((n:Int) * n - n) - ((n - i) * (n - i) - (n - i)) = 2 * (n * i - k) := by
    have : ((n:Int) * n - n) - ((n - i) * (n - i) - (n - i)) = 2 * (n * i) - i * (i + 1) := by ring
    rw [this, hk]; ring
  unfold position
  simp only
  rw [e, Int.mul_tdiv_cancel_left _ (by decide), hk]
  ring

theorem position_lt_row (n : Nat) {i j i' j' : Nat} (h : i < i') (hj : j < n) (hij' : i' < j')
    (hj' : j' < n) : position n i j < position n i' j' := by
  have h1 := two_position n i j
  have h2 := two_position n i' j'
  have a1 : (i:Int) + 1 ≤ i' := by exact_mod_cast h
  have a2 : (j:Int) + 1 ≤ n := by exact_mod_cast hj
  have a3 : (i':Int) + 1 ≤ j' := by exact_mod_cast hij'
  have a4 : (j':Int) + 1 ≤ n := by exact_mod_cast hj'
  have p : 0 ≤ ((n:Int) - i' - 2) * (i' - i - 1) := mul_nonneg (by linarith) (by linarith)
  nlinarith [p, sq_nonneg ((i':Int) - i)]

theorem position_lt_col (n i : Nat) {j j' : Nat} (h : j < j') :
    position n i j < position n i j' := by
  have h1 := two_position n i j
  have h2 := two_position n i j'
  have : (j:Int) < j' := by exact_mod_cast h
  linarith

theorem position_nonneg {n i j : Nat} (h : i < j) (hj : j < n) : 0 ≤ position n i j := by
  have h0 := two_position n 0 1
  rcases Nat.eq_zero_or_pos i with rfl | hi
  · have h1 := two_position n 0 j
    have : (1:Int) ≤ j := by exact_mod_cast h
    simp only [Nat.cast_zero, mul_zero, zero_mul] at h1 ⊢; linarith
  · have := position_lt_row n (i := 0) (j := 1) hi (by omega) h hj
    push_cast at h0; push_cast at this; linarith

theorem position_le_last {m n i j : Nat} (hm : m < n) (h : i < j) (hi : i < m) (hj : j < n) :
    position n i j ≤ position n ((m - 1 : Nat)) ((n - 1 : Nat)) := by
  rcases Nat.lt_or_ge i (m - 1) with h1 | h1
  · exact le_of_lt (position_lt_row n h1 hj (by omega) (by omega))
  · have : i = m - 1 := by omega
    subst this
    rcases Nat.lt_or_ge j (n - 1) with h2 | h2
    · exact le_of_lt (position_lt_col n _ h2)
    · have : j = n - 1 := by omega
      rw [this]

theorem position_inj {n i j i' j' : Nat} (h : i < j) (hj : j < n) (h' : i' < j') (hj' : j' < n)
    (e : position n i j = position n i' j') : i = i' ∧ j = j' := by
  rcases Nat.lt_trichotomy i i' with hlt | rfl | hgt
  · have := position_lt_row n hlt hj h' hj'; omega
  · refine ⟨rfl, ?_⟩
    rcases Nat.lt_trichotomy j j' with h1 | h1 | h1
    · have := position_lt_col n i h1; omega
    · exact h1
    · have := position_lt_col n i h1; omega
  · have := position_lt_row n hgt hj' h hj; omega

/-- A matrix as produced by `new` and kept by all operations. -/
structure WF {α} (d : Matrix α) : Prop where
  mpos : 0 < d.m
  mlt : d.m < d.n
  len : (d.data.length : Int) = position d.n ((d.m - 1 : Nat)) ((d.n - 1 : Nat)) + 1

theorem new_ok {α} {m n : Int} {d : Matrix α} (h : new α m n = .ok d) :
    WF d ∧ d.m = (min m (n - 1)).toNat ∧ d.n = n.toNat ∧ ∀ p : Nat, d.data[p]? = none ∨ d.data[p]? = some none := by
  unfold new at h
  generalize hm' : (if m ≥ n then n - 1 else m) = m' at h
  simp only at h
  have hmin : m' = min m (n - 1) := by
    rw [← hm']; split <;> omega
  split at h
  case isFalse => simp at h
  case isTrue hc =>
    obtain ⟨h1, h2, h3⟩ := hc
    injection h with h; subst h
    refine ⟨⟨by simp; omega, by simp; omega, ?_⟩, by simp [hmin], rfl, ?_⟩
    · simp only [List.length_replicate]
      have e1 : (((m'.toNat - 1 : Nat)) : Int) = m' - 1 := by omega
      have e2 : (((n.toNat - 1 : Nat)) : Int) = n - 1 := by omega
      have e3 : ((n.toNat : Nat) : Int) = n := by omega
      have := position_nonneg (n := n.toNat) (i := m'.toNat - 1) (j := n.toNat - 1) (by omega) (by omega)
      rw [e1, e2, e3] at this ⊢
      omega
    · intro p
      simp only [List.getElem?_replicate]
      split <;> simp

theorem new_isOk (α) {m n : Nat} (hm : 0 < m) (hn : 1 < n) : ∃ d, new α m n = .ok d := by
  unfold new
  generalize hm' : (if (m : Int) ≥ n then (n : Int) - 1 else m) = m'
  simp only
  rw [if_pos]
  · exact ⟨_, rfl⟩
  · split at hm' <;> omega

theorem storeAt_ok {α} {d : Matrix α} (w : WF d) {i j : Nat} (h : i < j) (hi : i < d.m) (hj : j < d.n)
    (v : α) : storeAt d i j v =
      .ok { d with data := d.data.set (position d.n i j).toNat (some v) } := by
  have h0 := position_nonneg h hj
  have h1 := position_le_last w.mlt h hi hj
  have h2 := w.len
  simp [storeAt, posOk, h, hi, hj, store, h0]
  omega

theorem WF.set {α} {d : Matrix α} (w : WF d) (p : Nat) (v : Option α) :
    WF { d with data := d.data.set p v } :=
  ⟨w.mpos, w.mlt, by simpa using w.len⟩

/-- Slot content of an ordered pair. -/
def slot {α} (d : Matrix α) (i j : Nat) : Option α := (d.data[(position d.n i j).toNat]?).join

theorem position_toNat_lt {α} {d : Matrix α} (w : WF d) {i j : Nat} (h : i < j) (hi : i < d.m)
    (hj : j < d.n) : (position d.n i j).toNat < d.data.length := by
  have h0 := position_nonneg h hj
  have h1 := position_le_last w.mlt h hi hj
  have h2 := w.len
  omega

theorem position_toNat_inj {n i j i' j' : Nat} (h : i < j) (hj : j < n) (h' : i' < j') (hj' : j' < n)
    (e : (position n i j).toNat = (position n i' j').toNat) : i = i' ∧ j = j' := by
  have := position_nonneg h hj
  have := position_nonneg h' hj'
  exact position_inj h hj h' hj' (by omega)

theorem slot_set {α} {d : Matrix α} (w : WF d) {i j i' j' : Nat} (h : i < j) (hi : i < d.m)
    (hj : j < d.n) (h' : i' < j') (hj' : j' < d.n) (v : α) :
    slot { d with data := d.data.set (position d.n i j).toNat (some v) } i' j' =
      if i' = i ∧ j' = j then some v else slot d i' j' := by
  unfold slot
  simp only [List.getElem?_set]
  split
  · next e =>
    have := position_toNat_inj h hj h' hj' e
    simp [this.1, this.2]
    simp [← this.1, ← this.2, position_toNat_lt w h hi hj]
  · next e =>
    split
    · next hh => exact absurd (by rw [hh.1, hh.2]) e
    · rfl

theorem load_eq {α} {d : Matrix α} {i j : Nat} (h : i < j) (hj : j < d.n) :
    load d (position d.n i j) = match slot d i j with | some v => .ok v | none => .ub := by
  have h0 := position_nonneg h hj
  unfold load slot
  have : ¬ (position d.n i j < 0) := by omega
  simp only [this, if_false]
  rcases d.data[(position d.n i j).toNat]? with _ | _ | v <;> rfl


/-! ### Cells -/

/-- The pairs a valid cell list may contain. -/
def Cell (m n : Nat) (c : Nat × Nat) : Prop := c.1 < c.2 ∧ c.1 < m ∧ c.2 < n

instance (m n c) : Decidable (Cell m n c) := by unfold Cell; infer_instance

theorem mem_loopPairs {m n : Nat} {c : Nat × Nat} : c ∈ loopPairs m n ↔ Cell m n c := by
  obtain ⟨i, j⟩ := c
  simp only [loopPairs, Cell, List.mem_flatMap, List.mem_range, List.mem_map, List.mem_range'_1,
    Prod.mk.injEq]
  constructor
  · rintro ⟨a, ha, b, hb, rfl, rfl⟩; omega
  · intro h; exact ⟨i, by omega, j, by omega, rfl, rfl⟩

/-- Writing a list of (cell, value) pairs. -/
def writeAll {α} (d : Matrix α) (ws : List ((Nat × Nat) × α)) : Matrix α :=
  { d with data := ws.foldl (fun l w => l.set (position d.n w.1.1 w.1.2).toNat (some w.2)) d.data }

theorem writeAll_append {α} (d : Matrix α) (a b) :
    writeAll d (a ++ b) = writeAll (writeAll d a) b := by
  simp [writeAll, List.foldl_append]

theorem writeAll_length {α} (d : Matrix α) (a) :
    (writeAll d a).data.length = d.data.length := by
  unfold writeAll
  simp only
  generalize d.data = l
  induction a generalizing l with
  | nil => rfl
  | cons c a ih => simp [ih]

theorem WF.writeAll {α} {d : Matrix α} (w : WF d) (a) : WF (writeAll d a) :=
  ⟨w.mpos, w.mlt, by rw [writeAll_length]; exact w.len⟩

/-- No cell gets two different values. -/
def Functional {α} (ws : List ((Nat × Nat) × α)) : Prop :=
  ∀ c v v', (c, v) ∈ ws → (c, v') ∈ ws → v = v'

theorem writeAll_getElem? {α} (d : Matrix α) (ws : List ((Nat × Nat) × α))
    (hcs : ∀ w ∈ ws, Cell d.m d.n w.1) (hf : Functional ws) (p : Nat) :
    ((∀ w ∈ ws, (position d.n w.1.1 w.1.2).toNat ≠ p) → (writeAll d ws).data[p]? = d.data[p]?) ∧
    (∀ w ∈ ws, (position d.n w.1.1 w.1.2).toNat = p →
      (writeAll d ws).data[p]? = (d.data[p]?).map fun _ => some w.2) := by
  induction ws using List.reverseRecOn with
  | nil => simp [writeAll]
  | append_singleton cs c ih =>
    have ih := ih (fun c hc => hcs c (by simp [hc]))
      (fun c v v' h h' => hf c v v' (List.mem_append_left _ h) (List.mem_append_left _ h'))
    have hc := hcs c (by simp)
    have e : (writeAll d (cs ++ [c])).data =
        (writeAll d cs).data.set (position d.n c.1.1 c.1.2).toNat (some c.2) := by
      simp [writeAll]
    rw [e]
    have hl := writeAll_length d cs
    constructor
    · intro h
      rw [List.getElem?_set_ne (h c (by simp))]
      exact ih.1 (fun c' hc' => h c' (by simp [hc']))
    · intro c' hc' hp
      rw [List.getElem?_set]
      split
      · next h2 =>
        have h5 : c'.1 = c.1 := by
          have h3 := hcs c' hc'
          have := position_toNat_inj h3.1 h3.2.2 hc.1 hc.2.2 (by rw [hp, h2])
          exact Prod.ext this.1 this.2
        have h6 : c'.2 = c.2 := hf c'.1 c'.2 c.2 hc' (by rw [h5]; simp)
        rw [hl]
        split
        · next h4 =>
          have : p < d.data.length := by omega
          simp [List.getElem?_eq_getElem this, h6]
        · next h4 =>
          have : d.data.length ≤ p := by omega
          simp [List.getElem?_eq_none this]
      · next h2 =>
        have : c' ∈ cs := by
          rcases List.mem_append.1 hc' with h | h
          · exact h
          · simp at h; subst h; exact absurd hp h2
        exact ih.2 c' this hp

/-- The result of writing only depends on the set of writes. -/
theorem writeAll_congr {α} (d : Matrix α) {cs cs' : List ((Nat × Nat) × α)}
    (h : ∀ c ∈ cs, Cell d.m d.n c.1) (hf : Functional cs) (he : ∀ c, c ∈ cs ↔ c ∈ cs') :
    writeAll d cs = writeAll d cs' := by
  have h' : ∀ c ∈ cs', Cell d.m d.n c.1 := fun c hc => h c ((he c).2 hc)
  have hf' : Functional cs' := fun c v v' a b => hf c v v' ((he _).2 a) ((he _).2 b)
  have : (writeAll d cs).data = (writeAll d cs').data := by
    apply List.ext_getElem?
    intro p
    have a := writeAll_getElem? d cs h hf p
    have b := writeAll_getElem? d cs' h' hf' p
    by_cases hp : ∃ c ∈ cs, (position d.n c.1.1 c.1.2).toNat = p
    · obtain ⟨c, hc, hp⟩ := hp
      rw [a.2 c hc hp, b.2 c ((he c).1 hc) hp]
    · rw [a.1 (fun c hc e => hp ⟨c, hc, e⟩), b.1 (fun c hc e => hp ⟨c, (he c).2 hc, e⟩)]
  simp only [writeAll, Matrix.mk.injEq, true_and]
  exact this

/-- Reading back a written cell. -/
theorem slot_writeAll {α} {d : Matrix α} (w : WF d) {ws : List ((Nat × Nat) × α)}
    (h : ∀ c ∈ ws, Cell d.m d.n c.1) (hf : Functional ws) {i j : Nat} {v : α} (hm : ((i, j), v) ∈ ws) :
    slot (writeAll d ws) i j = some v := by
  have hc := h _ hm
  have := (writeAll_getElem? d ws h hf (position d.n i j).toNat).2 _ hm rfl
  unfold slot
  rw [show (writeAll d ws).n = d.n from rfl, this,
    List.getElem?_eq_getElem (position_toNat_lt w hc.1 hc.2.1 hc.2.2)]
  rfl

theorem foldlM_storeAt {α} {d : Matrix α} (w : WF d) (cs : List ((Nat × Nat) × α))
    (h : ∀ c ∈ cs, Cell d.m d.n c.1) :
    cs.foldlM (fun d c => storeAt d c.1.1 c.1.2 c.2) d = .ok (writeAll d cs) := by
  induction cs generalizing d with
  | nil => rfl
  | cons c cs ih =>
    have hc := h c (by simp)
    rw [List.foldlM_cons, storeAt_ok w hc.1 hc.2.1 hc.2.2, Out.bind_ok, ih (w.set _ _)]
    · rfl
    · intro c' hc'; exact h c' (by simp [hc'])

/-- The pairs visited by `len` steps of the compute/merge cursor. -/
def cellsFrom (n : Nat) : Nat → Nat × Nat → List (Nat × Nat)
  | 0, _ => []
  | len + 1, c => c :: cellsFrom n len (advance n c.1 c.2)

@[simp] theorem cellsFrom_length (n len c) : (cellsFrom n len c).length = len := by
  induction len generalizing c with
  | zero => rfl
  | succ len ih => simp [cellsFrom, ih]

/-- Value of a cell. -/
def val {α T} (dist : T → T → α) (threads : List T) (c : Nat × Nat) : Option α :=
  match threads[c.1]?, threads[c.2]? with
  | some a, some b => some (dist a b)
  | _, _ => none

theorem val_isSome {α T} (dist : T → T → α) {threads : List T} {m n : Nat} {c : Nat × Nat}
    (hn : n ≤ threads.length) (hc : Cell m n c) : ∃ v, val dist threads c = some v := by
  have hi : c.1 < threads.length := by have := hc.1; have := hc.2; omega
  have hj : c.2 < threads.length := by have := hc.2; omega
  exact ⟨_, by unfold val; rw [List.getElem?_eq_getElem hi, List.getElem?_eq_getElem hj]⟩

theorem computeLoop_eq {α T} (dist : T → T → α) (threads : List T) (m n len : Nat) (c : Nat × Nat)
    (hn : n ≤ threads.length) (h : ∀ c' ∈ cellsFrom n len c, Cell m n c') :
    ∃ ds, computeLoop dist threads m n len c.1 c.2 = .ok ds := by
  induction len generalizing c with
  | zero => exact ⟨_, rfl⟩
  | succ len ih =>
    have hc := h c (by simp [cellsFrom])
    have hi : c.1 < threads.length := by have := hc.1; have := hc.2; omega
    have hj : c.2 < threads.length := by have := hc.2; omega
    obtain ⟨ds, e⟩ := ih (advance n c.1 c.2) (fun c' hc' => h c' (by simp [cellsFrom, hc']))
    unfold computeLoop
    simp only [hc.1, hc.2, not_true_eq_false, if_false, List.getElem?_eq_getElem hi,
      List.getElem?_eq_getElem hj, and_self]
    rw [e]
    exact ⟨_, rfl⟩

/-- If the compute loop finishes, all visited cells were valid and it returns their distances. -/
theorem computeLoop_ok {α T} {dist : T → T → α} {threads : List T} {m n len : Nat} {c : Nat × Nat}
    {ds : List α} (h : computeLoop dist threads m n len c.1 c.2 = .ok ds) :
    (∀ c' ∈ cellsFrom n len c, Cell m n c') ∧
      (cellsFrom n len c).map (val dist threads) = ds.map some := by
  induction len generalizing c ds with
  | zero => simp only [computeLoop, Out.ok.injEq] at h; subst h; simp [cellsFrom]
  | succ len ih =>
    unfold computeLoop at h
    split at h
    · simp at h
    split at h
    · simp at h
    next h1 h2 =>
    split at h
    · next a b ha hb =>
      rcases hr : computeLoop dist threads m n len (advance n c.1 c.2).1 (advance n c.1 c.2).2 with r | _ | _
      · rw [hr] at h
        simp only [Out.bind_ok, Out.ok.injEq] at h
        obtain ⟨ih1, ih2⟩ := ih hr
        constructor
        · intro c' hc'
          simp only [cellsFrom, List.mem_cons] at hc'
          rcases hc' with rfl | hc'
          · have : c'.1 < c'.2 := by simpa using h1
            have : c'.1 < m ∧ c'.2 < n := by simpa using h2
            exact ⟨by assumption, this⟩
          · exact ih1 c' hc'
        · subst h
          simp only [cellsFrom, List.map_cons, ih2]
          simp [val, ha, hb]
      · simp [hr] at h
      · simp [hr] at h
    · simp at h

theorem mergeLoop_eq {α} {d : Matrix α} (w : WF d) (len : Nat) (ds : List α) (c : Nat × Nat)
    (hl : len ≤ ds.length) (h : ∀ c' ∈ cellsFrom d.n len c, Cell d.m d.n c') :
    mergeLoop d.m d.n len ds c.1 c.2 d =
      .ok (some (writeAll d ((cellsFrom d.n len c).zip ds))) := by
  induction len generalizing c d ds with
  | zero => rfl
  | succ len ih =>
    have hc := h c (by simp [cellsFrom])
    have h1 := hc.1
    have h2 := hc.2
    unfold mergeLoop
    rw [if_neg (by omega)]
    rcases ds with _ | ⟨v, ds⟩
    · simp at hl
    simp only [cellsFrom, List.zip_cons_cons]
    rw [storeAt_ok w hc.1 hc.2.1 hc.2.2, Out.bind_ok]
    have := ih (w.set (position d.n c.1 c.2).toNat (some v)) ds (advance d.n c.1 c.2)
      (by simpa using hl) (fun c' hc' => h c' (by simp [cellsFrom]; exact Or.inr hc'))
    simp only at this
    rw [this]
    rfl

theorem mergeLoop_none {α} {d : Matrix α} (w : WF d) (len : Nat) (ds : List α) (c : Nat × Nat)
    (hl : len ≤ ds.length) (h : ¬ ∀ c' ∈ cellsFrom d.n len c, Cell d.m d.n c') :
    mergeLoop d.m d.n len ds c.1 c.2 d = .ok none := by
  induction len generalizing c d ds with
  | zero => exact absurd (by simp [cellsFrom]) h
  | succ len ih =>
    unfold mergeLoop
    split
    · rfl
    next hc =>
    have hC : Cell d.m d.n c := ⟨by omega, by omega, by omega⟩
    rcases ds with _ | ⟨v, ds⟩
    · simp at hl
    simp only
    rw [storeAt_ok w hC.1 hC.2.1 hC.2.2, Out.bind_ok]
    have := ih (w.set (position d.n c.1 c.2).toNat (some v)) ds (advance d.n c.1 c.2)
      (by simpa using hl) (by
        intro hh; apply h; intro c' hc'
        simp only [cellsFrom, List.mem_cons] at hc'
        rcases hc' with rfl | hc'
        · exact hC
        · exact hh c' hc')
    simpa using this

end Satyr.Distances
