import Verif.Cluster.ArrayModel
import Verif.Distances.Lemmas
/-!
# The growing arrays of the clustering hold the lists of the model

C160: no access outside the arrays, the lists that the other theorems about clustering are about, and nothing left on the heap.
-/
namespace Satyr.Cluster.Array
open Satyr.Distances

/-! ## Specification -/

/-- The array holds the list: its length, enough room (and at most twice as much as is needed), the elements. -/
structure Repr (c : Arr) (l : List Nat) : Prop where
  size : c.size = l.length
  room : l.length ≤ c.alloced
  tight : c.alloced ≤ 2 * l.length
  objects : ∀ i < l.length, c.objects i = l[i]?

/-- One merge on lists: the two sequences, each perhaps reversed, are put together; the second cluster is empty afterwards. -/
def listStep (f : Nat → List Nat) (o : Op) : Nat → List Nat := fun k =>
  if k = o.c2 then []
  else if k = o.c1 then (if o.reverse1 then (f o.c1).reverse else f o.c1) ++ (if o.reverse2 then (f o.c2).reverse else f o.c2)
  else f k

/-- All merges on lists. -/
def listRun (f : Nat → List Nat) (l : List Op) : Nat → List Nat := l.foldl listStep f

/-- The clusters of a merge are two different ones of the `n`. -/
def Op.Within (n : Nat) (o : Op) : Prop := o.c1 < n ∧ o.c2 < n ∧ o.c1 ≠ o.c2

/-! ## Lemmas -/

theorem bind_ok {α β : Type} (a : α) (f : α → Out β) : (Out.ok a).bind f = f a := rfl

theorem upd_eq {β : Type} (f : Nat → β) (i : Nat) (v : β) : upd f i v i = v := if_pos rfl
theorem upd_ne {β : Type} (f : Nat → β) {i k : Nat} (v : β) (h : k ≠ i) : upd f i v k = f k := if_neg h

theorem Repr.empty : Repr init [] := ⟨rfl, Nat.le_refl 0, Nat.le_refl 0, by simp⟩

/-- No list, no memory. -/
theorem Repr.nothing {c : Arr} (h : Repr c []) : c.alloced = 0 := by have := h.tight; simpa using this

theorem rd_spec {c : Arr} {l : List Nat} (h : Repr c l) {i : Nat} (hi : i < l.length) : rd c i = .ok l[i] := by
  rw [rd, if_pos (by have := h.room; omega), h.objects i hi]
  simp [hi]

theorem addIndex_spec {c : Arr} {l : List Nat} (h : Repr c l) (hl : l.length < 2 ^ 30) (v : Nat) : ∃ c', addIndex c v = .ok c' ∧ Repr c' (l ++ [v]) := by
  obtain ⟨h1, h2, h3, h4⟩ := h
  have fill : ∀ c2 : Arr, c2.size = l.length → l.length < c2.alloced → c2.alloced ≤ 2 * (l.length + 1) → (∀ i < l.length, c2.objects i = l[i]?) →
      ∃ c', ((wr c2 c2.size v).bind fun c => .ok { c with size := c.size + 1 }) = Out.ok c' ∧ Repr c' (l ++ [v]) := by
    intro c2 g1 g2 g3 g4
    rw [wr, if_pos (by omega), bind_ok]
    refine ⟨_, rfl, by simp [g1], by simp; omega, by simpa using g3, fun i hi => ?_⟩
    simp only [List.length_append, List.length_singleton] at hi
    by_cases e : i = c2.size
    · simp [e, g1, upd]
    · simp only [upd, if_neg e]
      rw [g4 i (by omega), List.getElem?_append_left (by omega)]
  unfold addIndex
  by_cases hf : c.size ≥ c.alloced
  · rw [if_pos hf, grow]
    have he : c.alloced = l.length := by omega
    rw [if_neg (by split <;> omega), bind_ok]
    refine fill _ h1 ?_ ?_ fun i hi => ?_
    · dsimp only; split <;> omega
    · dsimp only; split <;> omega
    · dsimp only; rw [if_pos (by omega), h4 i hi]
  · rw [if_neg hf, bind_ok]
    exact fill c h1 (by omega) (by omega) h4

theorem mergeFrom_spec {src : Arr} {s : List Nat} (hs : Repr src s) : ∀ (k i : Nat) {dest : Arr} {l : List Nat}, i + k = s.length → Repr dest l → l.length + k < 2 ^ 30 →
    ∃ c', mergeFrom src k i dest = .ok c' ∧ Repr c' (l ++ s.drop i) := by
  intro k
  induction k with
  | zero => intro i dest l hi h _; exact ⟨dest, rfl, by rw [List.drop_eq_nil_of_le (by omega), List.append_nil]; exact h⟩
  | succ k ih =>
    intro i dest l hi h hb
    rw [mergeFrom, rd_spec hs (show i < s.length by omega), bind_ok]
    obtain ⟨c1, e1, h1⟩ := addIndex_spec h (by omega) s[i]
    rw [e1, bind_ok]
    obtain ⟨c2, e2, h2⟩ := ih (i + 1) (by omega) h1 (by simp; omega)
    refine ⟨c2, e2, ?_⟩
    rw [List.drop_eq_getElem_cons (show i < s.length by omega)]
    simpa using h2

theorem reverseFrom_spec {l : List Nat} : ∀ (k i : Nat) {c : Arr}, i + k = l.length / 2 → c.size = l.length → l.length ≤ c.alloced → c.alloced ≤ 2 * l.length →
    (∀ j < l.length, c.objects j = if j < i ∨ l.length ≤ j + i then l[l.length - 1 - j]? else l[j]?) → ∃ c', reverseFrom k i c = .ok c' ∧ Repr c' l.reverse := by
  intro k
  induction k with
  | zero =>
    intro i c hi h1 h2 h3 h4
    refine ⟨c, rfl, by simpa using h1, by simpa using h2, by simpa using h3, fun j hj => ?_⟩
    simp only [List.length_reverse] at hj
    rw [h4 j hj, List.getElem?_reverse hj]
    split
    · rfl
    · rename_i hn
      rw [show l.length - 1 - j = j by omega]
  | succ k ih =>
    intro i c hi h1 h2 h3 h4
    have hlt : i < l.length - i - 1 := by omega
    have r1 : rd c i = .ok l[i] := by
      rw [rd, if_pos (by omega), h4 i (by omega), if_neg (by omega)]
      simp [show i < l.length by omega]
    have r2 : rd c (l.length - i - 1) = .ok l[l.length - i - 1] := by
      rw [rd, if_pos (by omega), h4 _ (by omega), if_neg (by omega)]
      simp [show l.length - i - 1 < l.length by omega]
    rw [reverseFrom, r1, bind_ok, h1, r2, bind_ok, wr, if_pos (by omega), bind_ok]
    dsimp only
    rw [h1, wr, if_pos (by dsimp only; omega), bind_ok]
    refine ih (i + 1) (by omega) rfl h2 h3 fun j hj => ?_
    dsimp only
    by_cases e1 : j = l.length - i - 1
    · rw [e1, upd_eq, if_pos (by omega), show l.length - 1 - (l.length - i - 1) = i by omega]
      simp [show i < l.length by omega]
    · rw [upd_ne _ _ e1]
      by_cases e2 : j = i
      · rw [e2, upd_eq, if_pos (by omega), show l.length - 1 - i = l.length - i - 1 by omega]
        simp [show l.length - i - 1 < l.length by omega]
      · rw [upd_ne _ _ e2, h4 j hj]
        by_cases h : j < i ∨ l.length ≤ j + i
        · rw [if_pos h, if_pos (by omega)]
        · rw [if_neg h, if_neg (by omega)]

theorem reverse_spec {c : Arr} {l : List Nat} (h : Repr c l) : ∃ c', reverse c = .ok c' ∧ Repr c' l.reverse := by
  rw [reverse, h.size]
  refine reverseFrom_spec (l.length / 2) 0 (by omega) h.size h.room h.tight fun j hj => ?_
  rw [if_neg (by omega), h.objects j hj]

theorem maybe_spec {c : Arr} {l : List Nat} (h : Repr c l) (r : Bool) :
    ∃ c', (if r then reverse c else .ok c) = .ok c' ∧ Repr c' (if r then l.reverse else l) := by
  cases r
  · exact ⟨c, rfl, h⟩
  · simpa using reverse_spec h

theorem step_spec {f : Nat → Arr} {g : Nat → List Nat} (h : ∀ i, Repr (f i) (g i)) (o : Op) (hb : (g o.c1).length + (g o.c2).length < 2 ^ 30) :
    ∃ f', step f o = .ok f' ∧ ∀ i, Repr (f' i) (listStep g o i) := by
  obtain ⟨a, ea, ha⟩ := maybe_spec (h o.c1) o.reverse1
  obtain ⟨b, eb, hb'⟩ := maybe_spec (h o.c2) o.reverse2
  have l1 : (if o.reverse1 = true then (g o.c1).reverse else g o.c1).length = (g o.c1).length := by split <;> simp
  have l2 : (if o.reverse2 = true then (g o.c2).reverse else g o.c2).length = (g o.c2).length := by split <;> simp
  obtain ⟨c, ec, hc⟩ := mergeFrom_spec hb' b.size 0 (by rw [hb'.size]; omega) ha (by rw [hb'.size, l1, l2]; exact hb)
  rw [step, ea, bind_ok, eb, bind_ok, merge, ec, bind_ok]
  refine ⟨_, rfl, fun i => ?_⟩
  unfold listStep
  by_cases h2 : i = o.c2
  · rw [h2, upd_eq, if_pos rfl]; exact Repr.empty
  · rw [upd_ne _ _ h2, if_neg h2]
    by_cases h1 : i = o.c1
    · rw [h1, upd_eq, if_pos rfl]; simpa using hc
    · rw [upd_ne _ _ h1, if_neg h1]; exact h i

/-- The number of objects in the first `n` clusters. -/
def total (g : Nat → List Nat) (n : Nat) : Nat := ((List.range n).map fun i => (g i).length).sum

theorem total_succ (g : Nat → List Nat) (n : Nat) : total g (n + 1) = total g n + (g n).length := by
  simp [total, List.range_succ]

theorem total_congr {g g' : Nat → List Nat} {n : Nat} (h : ∀ i < n, (g i).length = (g' i).length) : total g n = total g' n := by
  unfold total
  congr 1
  refine List.map_congr_left fun i hi => h i (by simpa using hi)

theorem total_one {g g' : Nat → List Nat} {a n : Nat} (ha : a < n) (h : ∀ i, i ≠ a → (g' i).length = (g i).length) :
    total g' n + (g a).length = total g n + (g' a).length := by
  induction n with
  | zero => omega
  | succ n ih =>
    rw [total_succ, total_succ]
    by_cases e : a = n
    · subst e
      rw [total_congr (g := g') (g' := g) fun i hi => h i (by omega)]
      omega
    · have := ih (by omega)
      rw [h n (fun e' => e e'.symm)]
      omega

theorem total_ge (g : Nat → List Nat) {a b n : Nat} (ha : a < n) (hb : b < n) (hab : a ≠ b) : (g a).length + (g b).length ≤ total g n := by
  have h1 := total_one (g := g) (g' := upd g a []) ha fun i hi => by rw [upd_ne _ _ hi]
  have h2 := total_one (g := upd g a []) (g' := upd (upd g a []) b []) hb fun i hi => by rw [upd_ne _ _ hi]
  rw [upd_eq, List.length_nil] at h1 h2
  rw [upd_ne _ _ hab.symm] at h2
  omega

theorem total_step {g : Nat → List Nat} {o : Op} {n : Nat} (h : o.Within n) : total (listStep g o) n = total g n := by
  obtain ⟨h1, h2, h3⟩ := h
  have e1 := total_one (g := g) (g' := upd g o.c2 []) h2 fun i hi => by rw [upd_ne _ _ hi]
  have e2 := total_one (g := upd g o.c2 []) (g' := listStep g o) h1 fun i hi => by
    unfold listStep upd
    split
    · rfl
    · rfl
  rw [upd_eq, List.length_nil] at e1
  rw [upd_ne _ _ h3] at e2
  have e3 : (listStep g o o.c1).length = (g o.c1).length + (g o.c2).length := by
    rw [listStep, if_neg h3, if_pos rfl, List.length_append]
    congr 1 <;> split <;> simp
  omega

theorem run_spec {n : Nat} (ops : List Op) : ∀ {f : Nat → Arr} {g : Nat → List Nat}, (∀ o ∈ ops, o.Within n) → (∀ i, Repr (f i) (g i)) → total g n < 2 ^ 30 →
    ∃ f', run f ops = .ok f' ∧ ∀ i, Repr (f' i) (listRun g ops i) := by
  induction ops with
  | nil => intro f g _ h _; exact ⟨f, rfl, h⟩
  | cons o ops ih =>
    intro f g hw h ht
    have ho := hw o (by simp)
    obtain ⟨f1, e1, h1⟩ := step_spec h o (Nat.lt_of_le_of_lt (total_ge g ho.1 ho.2.1 ho.2.2) ht)
    rw [run, e1, bind_ok]
    exact ih (fun o ho => hw o (by simp [ho])) h1 (by rw [total_step ho]; exact ht)

/-- One object in each of the first `n` clusters. -/
def singles (n : Nat) : Nat → List Nat := fun i => if i < n then [i] else []

theorem start_spec (n : Nat) : ∃ f, start n = .ok f ∧ ∀ i, Repr (f i) (singles n i) := by
  induction n with
  | zero => exact ⟨_, rfl, fun i => by simpa [singles] using Repr.empty⟩
  | succ n ih =>
    obtain ⟨f, e, h⟩ := ih
    obtain ⟨c, ec, hc⟩ := addIndex_spec Repr.empty (by simp) n
    rw [start, e, bind_ok, ec, bind_ok]
    refine ⟨_, rfl, fun i => ?_⟩
    by_cases hi : i = n
    · rw [hi, upd_eq]; simpa [singles] using hc
    · rw [upd_ne _ _ hi]
      have := h i
      unfold singles at this ⊢
      by_cases hl : i < n
      · rw [if_pos hl] at this; rw [if_pos (by omega)]; exact this
      · rw [if_neg hl] at this; rw [if_neg (by omega)]; exact this

theorem total_singles (n k : Nat) (h : k ≤ n) : total (singles n) k = k := by
  induction k with
  | zero => rfl
  | succ k ih => rw [total_succ, ih (by omega)]; simp [singles, show k < n by omega]

/-! ## Theorems -/

/-- C160: for every sequence of merges of different clusters among `n < 2 ^ 30`, whatever is reversed: nothing is read or written outside the arrays or before it was written, and
the arrays hold what the merges on lists give. A cluster that is empty has no memory. -/
theorem C160_history (n : Nat) (hn : n < 2 ^ 30) (ops : List Op) (hw : ∀ o ∈ ops, o.Within n) :
    ∃ f, (start n).bind (fun f => run f ops) = .ok f ∧ (∀ i, Repr (f i) (listRun (singles n) ops i)) ∧ ∀ i, listRun (singles n) ops i = [] → (f i).alloced = 0 := by
  obtain ⟨f, e, h⟩ := start_spec n
  obtain ⟨f', e', h'⟩ := run_spec ops hw h (by rw [total_singles n n (Nat.le_refl n)]; exact hn)
  exact ⟨f', by rw [e, bind_ok, e'], h', fun i hi => by have := h' i; rw [hi] at this; exact this.nothing⟩

theorem bind_inv {α β : Type} {x : Out α} {f : α → Out β} {b : β} (h : (x >>= f) = .ok b) : ∃ a, x = .ok a ∧ f a = .ok b := by
  cases x with
  | ok a => exact ⟨a, rfl, h⟩
  | abort => cases h
  | ub => cases h

section
variable {α : Type} (A : Arith α)

theorem findMin_mem {d : Matrix α} {cl : Nat → List Nat} {m n : Nat} {v : α} {c : Nat × Nat} (h : findMin A d cl m n = .ok (some (v, c))) : c ∈ loopPairs m n := by
  unfold findMin at h
  suffices H : ∀ (l : List (Nat × Nat)) (acc : Option (α × Nat × Nat)), (∀ x ∈ l, x ∈ loopPairs m n) → (∀ v c, acc = some (v, c) → c ∈ loopPairs m n) →
      l.foldlM (fun acc (ij : Nat × Nat) =>
        if cl ij.1 = [] ∨ cl ij.2 = [] then Out.ok acc else do
          let dist ← Distances.get A.zero d ij.1 ij.2
          match acc with
          | none => .ok (some (dist, ij.1, ij.2))
          | some (mn, c) => .ok (if A.gt mn dist then some (dist, ij.1, ij.2) else some (mn, c))) acc = .ok (some (v, c)) → c ∈ loopPairs m n from
    H _ none (fun _ hx => hx) (by simp) h
  intro l
  induction l with
  | nil => intro acc _ ha h; rw [List.foldlM_nil] at h; exact ha v c (by cases h; rfl)
  | cons x l ih =>
    intro acc hl ha h
    rw [List.foldlM_cons] at h
    obtain ⟨acc', e, h⟩ := bind_inv h
    refine ih acc' (fun y hy => hl y (by simp [hy])) (fun v' c' hc => ?_) h
    subst hc
    split at e
    · cases e; exact ha _ _ rfl
    · obtain ⟨dist, _, e⟩ := bind_inv e
      split at e
      · cases e; exact hl x (by simp)
      · split at e
        · cases e; exact hl x (by simp)
        · cases e; exact ha _ _ rfl

theorem maybeReverse_list {n : Nat} {r : Bool} {c o : List Nat} {lv lv' : Nat → Option α} (h : maybeReverse n r c lv = .ok (o, lv')) :
    o = if r then c.reverse else c := by
  unfold maybeReverse at h
  cases r with
  | false => simp at h; simp [h.1]
  | true =>
    rw [if_pos rfl] at h
    obtain ⟨_, _, h⟩ := bind_inv h
    cases h; rfl

theorem mergeOnce_op {orig : Matrix α} {m n : Nat} {s s' : St α} (h : mergeOnce A orig m n s = .ok s') :
    ∃ o : Op, o.Within n ∧ s'.clusters = listStep s.clusters o := by
  unfold mergeOnce at h
  obtain ⟨r, hr, h⟩ := bind_inv h
  split at h
  · cases h
  · rename_i mn c1 c2
    split at h
    · cases h
    · rename_i hlt
      have hc := mem_loopPairs.1 (findMin_mem A hr)
      have hcn : c2 < n := hc.2.2
      obtain ⟨d, _, h⟩ := bind_inv h
      obtain ⟨⟨r1, r2⟩, _, h⟩ := bind_inv h
      obtain ⟨⟨o1, lv1⟩, h1, h⟩ := bind_inv h
      obtain ⟨⟨o2, lv2⟩, h2, h⟩ := bind_inv h
      obtain ⟨e2, _, h⟩ := bind_inv h
      obtain ⟨lv, _, h⟩ := bind_inv h
      cases h
      refine ⟨⟨c1, c2, r1, r2⟩, ⟨by show c1 < n; omega, hcn, by show c1 ≠ c2; omega⟩, ?_⟩
      funext k
      dsimp only at h1 h2 ⊢
      rw [maybeReverse_list h1, maybeReverse_list h2]
      rfl

theorem mergeLoop_ops {orig : Matrix α} {m n : Nat} : ∀ (k : Nat) {s s' : St α}, mergeLoop A orig m n k s = .ok s' →
    ∃ ops : List Op, ops.length = k ∧ (∀ o ∈ ops, o.Within n) ∧ s'.clusters = listRun s.clusters ops := by
  intro k
  induction k with
  | zero => intro s s' h; cases h; exact ⟨[], rfl, by simp, rfl⟩
  | succ k ih =>
    intro s s' h
    rw [mergeLoop] at h
    obtain ⟨s1, h1, h⟩ := bind_inv h
    obtain ⟨o, ho, e⟩ := mergeOnce_op A h1
    obtain ⟨ops, hl, hw, e'⟩ := ih h
    exact ⟨o :: ops, by simp [hl], by simpa [ho] using hw, by rw [e', e]; rfl⟩

theorem listRun_congr {n : Nat} (ops : List Op) : ∀ {g g' : Nat → List Nat}, (∀ o ∈ ops, o.Within n) → (∀ i < n, g i = g' i) → ∀ i < n, listRun g ops i = listRun g' ops i := by
  induction ops with
  | nil => intro g g' _ h; exact h
  | cons o ops ih =>
    intro g g' hw h
    have ho := hw o (by simp)
    refine ih (fun o ho => hw o (by simp [ho])) fun i hi => ?_
    unfold listStep
    rw [h o.c1 ho.1, h o.c2 ho.2.1, h i hi]

theorem listRun_outside {n : Nat} (ops : List Op) : ∀ {g : Nat → List Nat}, (∀ o ∈ ops, o.Within n) → ∀ i, n ≤ i → listRun g ops i = g i := by
  induction ops with
  | nil => intro g _ i _; rfl
  | cons o ops ih =>
    intro g hw i hi
    have ho := hw o (by simp)
    have h1 := ho.1
    have h2 := ho.2.1
    rw [show listRun g (o :: ops) = listRun (listStep g o) ops from rfl, ih (fun o ho => hw o (by simp [ho])) i hi, listStep, if_neg (by omega), if_neg (by omega)]

theorem total_run {n : Nat} (ops : List Op) : ∀ {g : Nat → List Nat}, (∀ o ∈ ops, o.Within n) → total (listRun g ops) n = total g n := by
  induction ops with
  | nil => intro g _; rfl
  | cons o ops ih => intro g hw; exact (ih fun o ho => hw o (by simp [ho])).trans (total_step (hw o (by simp)))

/-- C160: clustering `n < 2 ^ 30` objects with the arrays of the code: there is a merge for each object but one; at the end the first array holds the order of the objects in the
dendrogram, and it is the only one that still has memory, which is freed next (lib/cluster.c:261). -/
theorem C160_cluster (d : Matrix α) (g : Dendrogram α) (h : clusterObjects A d = .ok g) (hn : d.n < 2 ^ 30) :
    ∃ ops f, ops.length = d.n - 1 ∧ (∀ o ∈ ops, o.Within d.n) ∧ (start d.n).bind (fun f => run f ops) = .ok f ∧ Repr (f 0) g.order ∧ (∀ i, 0 < i → (f i).alloced = 0) ∧
      (clean (f 0)).alloced = 0 := by
  unfold clusterObjects at h
  dsimp only at h
  split at h
  · cases h
  · obtain ⟨cd, _, h⟩ := bind_inv h
    obtain ⟨s, hs, h⟩ := bind_inv h
    split at h
    · cases h
    · split at h
      · cases h
      · rename_i h1 h2
        obtain ⟨lv, _, h⟩ := bind_inv h
        cases h
        obtain ⟨ops, hl, hw, e⟩ := mergeLoop_ops A _ hs
        obtain ⟨f, ef, hf, _⟩ := C160_history d.n hn ops hw
        have hsame := listRun_congr (g := fun i => [i]) (g' := singles d.n) ops hw fun i hi => by simp [singles, hi]
        have ht : total (listRun (singles d.n) ops) d.n = d.n := by rw [total_run ops hw, total_singles _ _ (Nat.le_refl _)]
        have h0 : s.clusters 0 = listRun (singles d.n) ops 0 := by rw [e]; exact hsame 0 (by omega)
        rw [h0] at h2
        have hge := total_ge (listRun (singles d.n) ops) (a := 0) (b := 1) (n := d.n) (by omega) (by omega) (by omega)
        refine ⟨ops, f, hl, hw, ef, ?_, fun i hi => ?_, rfl⟩
        · dsimp only
          rw [h0, List.take_of_length_le (by omega)]
          exact hf 0
        · have hi' : listRun (singles d.n) ops i = [] := by
            by_cases hin : i < d.n
            · have := total_ge (listRun (singles d.n) ops) (a := 0) (b := i) (n := d.n) (by omega) hin (by omega)
              exact List.length_eq_zero_iff.1 (by omega)
            · rw [listRun_outside ops hw i (by omega)]; simp [singles, hin]
          have := hf i
          rw [hi'] at this
          exact this.nothing

end

/-! ## Examples -/

/-- The contents of the first `n` arrays: size, room, elements. -/
def seen160 (n : Nat) : Out (Nat → Arr) → Option (List (Nat × Nat × List (Option Nat)))
  | .ok f => some ((List.range n).map fun i => ((f i).size, (f i).alloced, (List.range (f i).alloced).map (f i).objects))
  | _ => none

def ops160 : List Op := [⟨1, 3, false, false⟩, ⟨0, 1, false, true⟩, ⟨0, 2, true, false⟩]

example : ∀ o ∈ ops160, o.Within 4 := by simp [ops160, Op.Within]
example : seen160 4 ((start 4).bind fun f => run f ops160) = some [(4, 4, [some 1, some 3, some 0, some 2]), (0, 0, []), (0, 0, []), (0, 0, [])] := by decide +kernel
example : listRun (singles 4) ops160 0 = [1, 3, 0, 2] := by decide +kernel
/-- Numbers as distances. -/
def nats : Arith Nat where
  zero := 0
  gt a b := decide (b < a)
  le a b := decide (a ≤ b)
  avg a p b q := (a * p + b * q) / (p + q)

/-- The hypotheses of `C160_cluster`: three objects. -/
example : ((new Nat 2 3).bind fun d => (Distances.set d 0 1 5).bind fun d => (Distances.set d 0 2 1).bind fun d => (Distances.set d 1 2 3).bind fun d => clusterObjects nats d) =
    .ok ⟨[0, 2, 1], [1, 4]⟩ := by decide +kernel

end Satyr.Cluster.Array
