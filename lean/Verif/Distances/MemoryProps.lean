import Verif.Distances.MemoryModel
/-!
# Memory of the parts of a distance matrix

C159: what is given back when the parts are freed.
-/
namespace Satyr.Distances.Memory

/-! ## Specification -/

/-- Memory `m'` is memory `m` with the blocks at the addresses `f`, which were not in use, in addition. -/
structure Adds (m m' : Mem) (f : List Nat) : Prop where
  nodup : f.Nodup
  fresh : ∀ x ∈ f, m x = none
  used : ∀ x ∈ f, m' x ≠ none
  same : ∀ x, x ∉ f → m' x = m x

/-- A part in memory: its address, the address of its distances, its length. -/
structure Node where
  address : Nat
  distances : Nat
  len : Nat

/-- The blocks of a part. -/
def Node.blocks (x : Node) : List Nat := x.address :: if x.distances = 0 then [] else [x.distances]

/-- The blocks of a list of parts. -/
def blocks (l : List Node) : List Nat := l.flatMap Node.blocks

/-- The list of parts is at address `p`. -/
def Seg (m : Mem) : List Node → Nat → Prop
  | [], p => p = 0
  | x :: l, p => p = x.address ∧ p ≠ 0 ∧ ∃ next, m p = some (.part x.distances next x.len) ∧ Seg m l next

/-! ## Lemmas -/

theorem bind_ok {α β : Type} (a : α) (f : α → Out β) : (Out.ok a).bind f = f a := rfl

def erase (m : Mem) (f : List Nat) : Mem := fun x => if x ∈ f then none else m x

theorem set_ne {m : Mem} {p x : Nat} (c : Option Cell) (h : x ≠ p) : m.set p c x = m x := if_neg h
theorem set_eq (m : Mem) (p : Nat) (c : Option Cell) : m.set p c p = c := if_pos rfl

theorem gfree_spec {m : Mem} {p : Nat} (h : m p ≠ none) : gfree p m = .ok (erase m [p]) := by
  unfold gfree
  cases hp : m p with
  | none => exact absurd hp h
  | some c =>
    dsimp only
    congr 1
    funext x
    simp [Mem.set, erase]

theorem erase_erase (m : Mem) (f g : List Nat) : erase (erase m f) g = erase m (f ++ g) := by
  funext x
  simp only [erase, List.mem_append]
  by_cases h1 : x ∈ g <;> by_cases h2 : x ∈ f <;> simp [h1, h2]

theorem erase_ne {m : Mem} {f : List Nat} {x : Nat} (h : x ∉ f) : erase m f x = m x := if_neg h

theorem blocks_cons (x : Node) (l : List Node) : blocks (x :: l) = x.blocks ++ blocks l := List.flatMap_cons ..
theorem blocks_append (l l' : List Node) : blocks (l ++ l') = blocks l ++ blocks l' := List.flatMap_append ..

theorem address_mem (x : Node) : x.address ∈ x.blocks := by simp [Node.blocks]

theorem Seg.congr {m m' : Mem} {l : List Node} : ∀ {p : Nat}, Seg m l p → (∀ x ∈ blocks l, m' x = m x) → Seg m' l p := by
  induction l with
  | nil => intro p h _; exact h
  | cons x l ih =>
    intro p ⟨h1, h0, next, h2, h3⟩ hm
    refine ⟨h1, h0, next, ?_, ih h3 fun y hy => hm y (by simp [blocks_cons, hy])⟩
    rw [hm p (by simp [blocks_cons, h1, address_mem]), h2]

theorem Seg.suffix {m : Mem} {pre post : List Node} {x : Node} : ∀ {p : Nat}, Seg m (pre ++ x :: post) p → Seg m (x :: post) x.address := by
  induction pre with
  | nil => intro p h; rw [← h.1]; exact h
  | cons y pre ih => intro p ⟨_, _, next, _, h⟩; exact ih h

theorem Seg.replace {m m' : Mem} {pre post post' : List Node} {x x' : Node} (ha : x'.address = x.address) :
    ∀ {p : Nat}, Seg m (pre ++ x :: post) p → (∀ y ∈ blocks pre, m' y = m y) → Seg m' (x' :: post') x'.address → Seg m' (pre ++ x' :: post') p := by
  induction pre with
  | nil => intro p h _ h'; rw [show p = x'.address from h.1.trans ha.symm]; exact h'
  | cons y pre ih =>
    intro p ⟨h1, h0, next, h2, h3⟩ hm h'
    refine ⟨h1, h0, next, ?_, ih h3 (fun z hz => hm z (by simp [blocks_cons, hz])) h'⟩
    rw [hm p (by simp [blocks_cons, h1, address_mem]), h2]

theorem Seg.walk {m : Mem} {pre post : List Node} {x : Node} : ∀ {p : Nat}, Seg m (pre ++ x :: post) p → Memory.walk m pre.length p = .ok x.address := by
  induction pre with
  | nil => intro p h; rw [List.length_nil, Memory.walk, h.1]
  | cons y pre ih =>
    intro p ⟨_, _, next, h2, h3⟩
    rw [List.length_cons, Memory.walk, readPart, h2]
    dsimp only
    rw [bind_ok]
    exact ih h3

/-- Freeing a part: its blocks are gone. -/
theorem free_node {m : Mem} {x : Node} {next n : Nat} (follow : Bool) (h0 : x.address ≠ 0) (hp : m x.address = some (.part x.distances next x.len))
    (hn : x.blocks.Nodup) (hu : ∀ y ∈ x.blocks, m y ≠ none) :
    partFree (n + 1) x.address follow m = if follow then partFree n next true (erase m x.blocks) else .ok (erase m x.blocks) := by
  rw [partFree, if_neg h0, readPart, hp]
  dsimp only
  rw [bind_ok]
  dsimp only
  by_cases hd : x.distances = 0
  · rw [if_neg (fun h => h hd), bind_ok, gfree_spec (by rw [hp]; simp), bind_ok]
    simp [Node.blocks, hd]
  · have hb : x.blocks = [x.address, x.distances] := by simp [Node.blocks, hd]
    rw [hb] at hn hu ⊢
    have hne : x.address ≠ x.distances := by simpa using hn
    rw [if_pos hd, gfree_spec (hu _ (by simp)), bind_ok, gfree_spec (by rw [erase_ne (by simpa using hne), hp]; simp), bind_ok, erase_erase]
    have : erase m ([x.distances] ++ [x.address]) = erase m [x.address, x.distances] := by
      funext y; simp only [erase, List.mem_append, List.mem_cons, List.not_mem_nil, or_false]; simp only [or_comm]
    rw [this]

theorem free_list (l : List Node) : ∀ {n p : Nat} {m : Mem}, l.length < n → Seg m l p → (blocks l).Nodup → (∀ y ∈ blocks l, m y ≠ none) →
    partFree n p true m = .ok (erase m (blocks l)) := by
  induction l with
  | nil =>
    intro n p m hn h _ _
    obtain ⟨n, rfl⟩ : ∃ k, n = k + 1 := ⟨n - 1, by simp at hn; omega⟩
    obtain rfl : p = 0 := h
    rw [partFree, if_pos rfl]
    congr 1
  | cons x l ih =>
    intro n p m hn h hnd hu
    obtain ⟨n, rfl⟩ : ∃ k, n = k + 1 := ⟨n - 1, by simp at hn; omega⟩
    obtain ⟨rfl, h0, next, h2, h3⟩ := h
    rw [blocks_cons] at hnd hu
    obtain ⟨n1, n2, n3⟩ := List.nodup_append.1 hnd
    have hk : ∀ y ∈ blocks l, erase m x.blocks y = m y := fun y hy => erase_ne fun hx => n3 y hx y hy rfl
    rw [free_node true h0 h2 n1 fun y hy => hu y (by simp [hy]), if_pos rfl,
      ih (by simp at hn; omega) (h3.congr hk) n2 fun y hy => by rw [hk y hy]; exact hu y (by simp [hy]), erase_erase, blocks_cons]

theorem Adds.erase {b m : Mem} {f g : List Nat} (h : Adds b m (f ++ g)) : Adds b (erase m f) g := by
  obtain ⟨h1, h2, h3, h4⟩ := h
  obtain ⟨n1, n2, n3⟩ := List.nodup_append.1 h1
  refine ⟨n2, fun x hx => h2 x (by simp [hx]), fun x hx => ?_, fun x hx => ?_⟩
  · rw [erase_ne fun hf => n3 x hf x hx rfl]; exact h3 x (by simp [hx])
  · by_cases hf : x ∈ f
    · rw [Memory.erase, if_pos hf, h2 x (by simp [hf])]
    · rw [erase_ne hf]; exact h4 x (by simp [hx, hf])

theorem Adds.perm {b m : Mem} {f g : List Nat} (h : Adds b m f) (hp : f.Perm g) : Adds b m g :=
  ⟨hp.nodup_iff.1 h.nodup, fun x hx => h.fresh x (hp.mem_iff.2 hx), fun x hx => h.used x (hp.mem_iff.2 hx), fun x hx => h.same x fun hf => hx (hp.mem_iff.1 hf)⟩

theorem Adds.alloc {b m : Mem} {f : List Nat} (h : Adds b m f) {q : Nat} (hq : m q = none) (c : Cell) : Adds b (m.set q (some c)) (q :: f) := by
  have hf : q ∉ f := fun hf => h.used q hf hq
  refine ⟨List.nodup_cons.2 ⟨hf, h.nodup⟩, fun x hx => ?_, fun x hx => ?_, fun x hx => ?_⟩
  · rcases List.mem_cons.1 hx with rfl | hx
    · rw [← h.same _ hf, hq]
    · exact h.fresh x hx
  · by_cases e : x = q
    · rw [e, set_eq]; simp
    · rw [set_ne _ e]; exact h.used x (by simpa [e] using hx)
  · rw [set_ne _ fun e : x = q => hx (by simp [e])]
    exact h.same x fun hf => hx (by simp [hf])

theorem Adds.set {b m : Mem} {f : List Nat} (h : Adds b m f) {q : Nat} (hq : q ∈ f) (c : Cell) : Adds b (m.set q (some c)) f := by
  refine ⟨h.nodup, h.fresh, fun x hx => ?_, fun x hx => ?_⟩
  · by_cases e : x = q
    · rw [e, set_eq]; simp
    · rw [set_ne _ e]; exact h.used x hx
  · rw [set_ne _ fun e : x = q => hx (e ▸ hq)]; exact h.same x hx

/-- Is the part computed? -/
def Node.computed (x : Node) : Bool := x.distances ≠ 0

theorem compute_spec (A : Allocator) {b m : Mem} {pre post : List Node} {x : Node} {p : Nat} {lost : List Nat} (h : Seg m (pre ++ x :: post) p)
    (hA : Adds b m (blocks (pre ++ x :: post) ++ lost)) :
    compute A x.address m = .abort ∨ ∃ q m', compute A x.address m = .ok m' ∧ q ≠ 0 ∧ Seg m' (pre ++ { x with distances := q } :: post) p ∧
      Adds b m' (blocks (pre ++ { x with distances := q } :: post) ++ ((if x.distances = 0 then [] else [x.distances]) ++ lost)) := by
  obtain ⟨_, h0, next, h2, h3⟩ := h.suffix
  rw [compute, readPart, h2]
  dsimp only
  rw [bind_ok]
  dsimp only
  rw [Memory.alloc]
  cases hq : A.pick m with
  | none => exact .inl rfl
  | some q =>
    right
    obtain ⟨hq1, hq0⟩ := A.free m q hq
    have hAq := (hA.alloc hq1 (.floats x.len)).set (q := x.address) (by simp [blocks_append, blocks_cons, address_mem]) (.part q next x.len)
    have hmem : ∀ y ∈ blocks (pre ++ x :: post), y ≠ q := fun y hy e => hA.used y (by simp [hy]) (by rw [e, hq1])
    have hnd := (List.nodup_append.1 hA.nodup).1
    rw [blocks_append, blocks_cons] at hnd
    obtain ⟨_, n2, n3⟩ := List.nodup_append.1 hnd
    obtain ⟨_, _, n4⟩ := List.nodup_append.1 n2
    refine ⟨q, (m.set q (some (.floats x.len))).set x.address (some (.part q next x.len)), rfl, hq0, ?_, hAq.perm ?_⟩
    · refine Seg.replace (x := x) (x' := { x with distances := q }) (post := post) rfl h (fun y hy => ?_) ⟨rfl, h0, next, set_eq .., h3.congr fun y hy => ?_⟩
      · rw [set_ne _ fun e => n3 y hy x.address (by simp [address_mem]) e, set_ne _ (hmem y (by simp [blocks_append, hy]))]
      · rw [set_ne _ fun e => n4 x.address (address_mem x) y hy e.symm, set_ne _ (hmem y (by simp [blocks_append, blocks_cons, hy]))]
    · simp only [blocks_append, blocks_cons, Node.blocks, if_neg hq0]
      rw [List.perm_iff_count]
      intro a
      simp only [List.count_append, List.count_cons, List.count_nil]
      omega

theorem create_spec (A : Allocator) (lens : List Nat) : ∀ {b m : Mem} {l : List Node} {res tail : Nat}, Seg m l res → Adds b m (blocks l) → (∀ x ∈ l, x.distances = 0) →
    (l = [] ∧ tail = 0 ∨ ∃ pre x, l = pre ++ [x] ∧ tail = x.address ∧ tail ≠ 0) →
    create A lens res tail m = .abort ∨ ∃ p m' l', create A lens res tail m = .ok (p, m') ∧ Seg m' l' p ∧ Adds b m' (blocks l') ∧ (∀ x ∈ l', x.distances = 0) ∧
      l'.map (·.len) = l.map (·.len) ++ lens := by
  induction lens with
  | nil => intro b m l res tail h hA hd _; exact .inr ⟨res, m, l, rfl, h, hA, hd, by simp⟩
  | cons len lens ih =>
    intro b m l res tail h hA hd ht
    rw [create, Memory.alloc]
    cases hq : A.pick m with
    | none => exact .inl rfl
    | some q =>
      obtain ⟨hq1, hq0⟩ := A.free m q hq
      have hAq := hA.alloc hq1 (.part 0 0 len)
      dsimp only
      rw [bind_ok]
      dsimp only
      rcases ht with ⟨rfl, rfl⟩ | ⟨pre, x, rfl, rfl, h0⟩
      · rw [if_pos rfl]
        have := ih (b := b) (m := m.set q (some (.part 0 0 len))) (l := [⟨q, 0, len⟩]) (res := q) (tail := q) ⟨rfl, hq0, 0, set_eq .., rfl⟩
          (by simpa [blocks, Node.blocks] using hAq) (by simp) (.inr ⟨[], _, rfl, rfl, hq0⟩)
        simpa using this
      · rw [if_neg h0]
        obtain ⟨_, _, next, h2, h3⟩ := h.suffix
        have hmem : ∀ y ∈ blocks (pre ++ [x]), y ≠ q := fun y hy e => hA.used y hy (by rw [e, hq1])
        have hx : x.address ≠ q := hmem _ (by simp [blocks_append, blocks_cons, address_mem])
        have hnd := hA.nodup
        rw [blocks_append] at hnd
        obtain ⟨_, _, n3⟩ := List.nodup_append.1 hnd
        rw [readPart, set_ne _ hx, h2]
        dsimp only
        rw [bind_ok]
        dsimp only
        have := ih (b := b) (m := (m.set q (some (.part 0 0 len))).set x.address (some (.part x.distances q x.len))) (l := (pre ++ [x]) ++ [⟨q, 0, len⟩]) (res := res) (tail := q)
          (by
            rw [List.append_assoc]
            refine h.replace (post' := [⟨q, 0, len⟩]) rfl (fun y hy => ?_) ⟨rfl, h0, q, set_eq .., rfl, hq0, 0, ?_, rfl⟩
            · rw [set_ne _ fun e => n3 y hy x.address (by simp [blocks_cons, address_mem]) e, set_ne _ (hmem y (by simp [blocks_append, hy]))]
            · rw [set_ne _ hx.symm, set_eq])
          ((hAq.set (by simp [blocks_append, blocks_cons, address_mem]) _).perm (by
            rw [blocks_append (pre ++ [x])]
            simpa [blocks, Node.blocks] using (List.perm_append_comm (l₁ := [q]) (l₂ := blocks (pre ++ [x]))).trans (by simp [blocks, Node.blocks])))
          (by simpa [or_imp, forall_and] using hd) (.inr ⟨_, _, rfl, rfl, hq0⟩)
        simpa using this

theorem computeAll_spec (A : Allocator) (calls : List Nat) : ∀ {b m : Mem} {l : List Node} {p : Nat} {lost : List Nat}, (∀ i ∈ calls, i < l.length) → Seg m l p →
    Adds b m (blocks l ++ lost) →
    computeAll A p calls m = .abort ∨ ∃ m' l' lost', computeAll A p calls m = .ok m' ∧ Seg m' l' p ∧ Adds b m' (blocks l' ++ lost') ∧ l'.length = l.length ∧
      lost'.length + l'.countP Node.computed = lost.length + l.countP Node.computed + calls.length ∧
      ∀ i, (l'[i]?.any Node.computed) = (l[i]?.any Node.computed || decide (i ∈ calls)) := by
  induction calls with
  | nil => intro b m l p lost _ h hA; exact .inr ⟨m, l, lost, rfl, h, hA, rfl, rfl, by simp⟩
  | cons c calls ih =>
    intro b m l p lost hc h hA
    have hcl := hc c (by simp)
    obtain ⟨pre, x, post, rfl, rfl⟩ : ∃ pre x post, l = pre ++ x :: post ∧ c = pre.length :=
      ⟨l.take c, l[c], l.drop (c + 1), by simp, by simp; omega⟩
    rw [computeAll, h.walk, bind_ok]
    rcases compute_spec A h hA with e | ⟨q, m1, e, hq, h1, hA1⟩
    · rw [e]; exact .inl rfl
    · rw [e, bind_ok]
      rcases ih (lost := (if x.distances = 0 then [] else [x.distances]) ++ lost) (fun i hi => by simpa using hc i (by simp [hi])) h1 hA1 with e2 | ⟨m2, l2, lost2, e2, h2, hA2, hl, hcnt, hfl⟩
      · exact .inl e2
      · refine .inr ⟨m2, l2, lost2, e2, h2, hA2, by simpa using hl, ?_, fun i => ?_⟩
        · rw [hcnt]
          simp only [List.countP_append, List.countP_cons, List.length_append, List.length_cons, Node.computed]
          by_cases hx : x.distances = 0 <;> simp [hx, hq] <;> omega
        · rw [hfl i]
          by_cases hi : i = pre.length
          · subst hi; simp [Node.computed, hq]
          · have : (pre ++ { x with distances := q } :: post)[i]? = (pre ++ x :: post)[i]? := by
              by_cases hlt : i < pre.length
              · simp [List.getElem?_append_left hlt]
              · rw [List.getElem?_append_right (by omega), List.getElem?_append_right (by omega)]
                obtain ⟨k, hk⟩ : ∃ k, i - pre.length = k + 1 := ⟨i - pre.length - 1, by omega⟩
                rw [hk]; rfl
            rw [this]
            simp [hi]

theorem countP_range (l : List Node) : l.countP Node.computed = (List.range l.length).countP fun i => l[i]?.any Node.computed := by
  have : l.map Node.computed = (List.range l.length).map fun i => l[i]?.any Node.computed := by
    refine List.ext_getElem (by simp) fun i h1 h2 => ?_
    simp at h1
    simp [h1]
  have h := congrArg (List.countP id) this
  rw [List.countP_map, List.countP_map] at h
  exact h

/-! ## Theorems -/

/-- C159: the parts are created, those with the numbers `calls` are computed, in this order, and the list is freed. Nothing is freed twice; every block that was there before is
as it was; a block is lost for every call of `sr_distances_part_compute` on a part that had been computed before, and no other block is. -/
theorem C159_session (A : Allocator) (lens calls : List Nat) (m : Mem) (hc : ∀ i ∈ calls, i < lens.length) :
    session A lens calls m = .abort ∨ ∃ m' lost, session A lens calls m = .ok m' ∧ Adds m m' lost ∧
      lost.length + (List.range lens.length).countP (fun i => i ∈ calls) = calls.length := by
  unfold session
  rcases create_spec A lens (b := m) (m := m) (l := []) (res := 0) (tail := 0) rfl ⟨List.nodup_nil, by simp [blocks], by simp [blocks], by simp⟩ (by simp) (.inl ⟨rfl, rfl⟩)
    with e | ⟨p, m1, l, e, h1, hA1, hd, hl⟩
  · rw [e]; exact .inl rfl
  · have hlen : l.length = lens.length := by simpa using congrArg List.length hl
    rw [e, bind_ok]
    dsimp only
    rcases computeAll_spec A calls (lost := []) (by rw [hlen]; exact hc) h1 (by simpa using hA1) with e2 | ⟨m2, l2, lost, e2, h2, hA2, hl2, hcnt, hfl⟩
    · rw [e2]; exact .inl rfl
    · rw [e2, bind_ok, free_list l2 (by omega) h2 (List.nodup_append.1 hA2.nodup).1 fun y hy => hA2.used y (by simp [hy])]
      refine .inr ⟨_, lost, rfl, hA2.erase, ?_⟩
      have h0 : l.countP Node.computed = 0 := by
        rw [List.countP_eq_zero]
        intro x hx
        simp [Node.computed, hd x hx]
      have hz : ∀ i : Nat, (l[i]?.any Node.computed) = false := by
        intro i
        cases hi : l[i]? with
        | none => rfl
        | some x => simp [Node.computed, hd x (List.mem_of_getElem? hi)]
      rw [h0, countP_range] at hcnt
      simp only [hfl, hz, Bool.false_or, hl2, hlen] at hcnt
      simpa using hcnt

/-- C159: if no part is computed twice, all memory is given back. -/
theorem C159_clean (A : Allocator) (lens calls : List Nat) (m : Mem) (hc : ∀ i ∈ calls, i < lens.length) (hn : calls.Nodup) :
    session A lens calls m = .abort ∨ session A lens calls m = .ok m := by
  rcases C159_session A lens calls m hc with h | ⟨m', lost, h, hA, hl⟩
  · exact .inl h
  · right
    have : ((List.range lens.length).filter (fun i => i ∈ calls)).Perm calls := by
      rw [List.perm_ext_iff_of_nodup (List.nodup_range.filter _) hn]
      intro a
      simpa using hc a
    rw [List.countP_eq_length_filter, this.length_eq] at hl
    obtain rfl : lost = [] := List.length_eq_zero_iff.1 (by omega)
    rw [h]
    congr 1
    funext x
    exact hA.same x (by simp)

/-- C159: without `follow_links` only the part itself and its distances are given back. -/
theorem C159_one (b m : Mem) (x : Node) (l : List Node) (lost : List Nat) (h : Seg m (x :: l) x.address) (hA : Adds b m (blocks (x :: l) ++ lost)) :
    ∃ m' next, partFree 1 x.address false m = .ok m' ∧ Seg m' l next ∧ Adds b m' (blocks l ++ lost) := by
  obtain ⟨_, h0, next, h2, h3⟩ := h
  rw [blocks_cons, List.append_assoc] at hA
  obtain ⟨n1, n2, n3⟩ := List.nodup_append.1 hA.nodup
  refine ⟨erase m x.blocks, next, ?_, h3.congr fun y hy => erase_ne fun hx => n3 y hx y (by simp [hy]) rfl, hA.erase⟩
  rw [free_node false h0 h2 n1 fun y hy => hA.used y (by simp [hy])]
  rfl

/-- C159 is false if a part is computed twice: its first array is lost. -/
theorem C159_not_twice (A : Allocator) (len : Nat) (m m' : Mem) (h : session A [len] [0, 0] m = .ok m') : m' ≠ m := by
  rcases C159_session A [len] [0, 0] m (by simp) with e | ⟨m2, lost, e, hA, hl⟩
  · rw [e] at h; cases h
  · rw [e] at h; cases h
    have hl : lost.length = 1 := by simpa [List.countP_cons] using hl
    obtain ⟨a, rfl⟩ := List.length_eq_one_iff.1 hl
    intro hm
    exact hA.used a (by simp) (by rw [hm]; exact hA.fresh a (by simp))

/-! ## Examples -/

/-- Addresses from 1 to 20, the lowest one that is not in use. -/
def lowest : Allocator where
  pick m := ((List.range 20).map (· + 1)).find? fun p => (m p).isNone
  free m p h := by
    have h1 := List.find?_some h
    have h2 := List.mem_of_find?_eq_some h
    refine ⟨by simpa using h1, ?_⟩
    simp at h2
    omega

/-- The cells at the addresses 1 to 9. -/
def seen159 : Out Mem → Option (List (Option Cell))
  | .ok m => some ((List.range 9).map fun i => m (i + 1))
  | _ => none

/-- A block at address 2. -/
def before : Mem := fun x => if x = 2 then some (.floats 7) else none

example : seen159 (session lowest [4, 4, 3] [2, 0] before) = some [none, some (.floats 7), none, none, none, none, none, none, none] := by decide +kernel
example : ∃ m, session lowest [4, 4, 3] [2, 0] before = .ok m := by
  have h : (seen159 (session lowest [4, 4, 3] [2, 0] before)).isSome = true := by decide +kernel
  revert h
  cases session lowest [4, 4, 3] [2, 0] before <;> simp [seen159]
example : seen159 (session lowest [4, 4, 3] [2, 0, 2] before) = some [none, some (.floats 7), none, none, some (.floats 3), none, none, none, none] := by decide +kernel
example : seen159 ((create lowest [4, 3] 0 0 before).bind fun (p, m) => (computeAll lowest p [1] m).bind fun m => partFree 1 p false m) =
    some [none, some (.floats 7), some (.part 4 0 3), some (.floats 3), none, none, none, none, none] := by decide +kernel
/-- The hypotheses of `C159_one`: a part at 1 with distances at 3, then a part at 4 that is not computed; a block that was lost at 5. -/
def twoParts : Mem := fun x =>
  if x = 1 then some (.part 3 4 9) else if x = 3 then some (.floats 9) else if x = 4 then some (.part 0 0 8) else if x = 5 then some (.floats 9) else before x

example : Seg twoParts [⟨1, 3, 9⟩, ⟨4, 0, 8⟩] 1 ∧ Adds before twoParts (blocks [⟨1, 3, 9⟩, ⟨4, 0, 8⟩] ++ [5]) := by
  refine ⟨⟨rfl, by decide, 4, rfl, rfl, by decide, 0, rfl, rfl⟩, ⟨by decide, by decide, by decide, fun x hx => ?_⟩⟩
  have hx : x ≠ 1 ∧ x ≠ 3 ∧ x ≠ 4 ∧ x ≠ 5 := by simpa [blocks, Node.blocks] using hx
  simp [twoParts, hx]

/-- The lengths are those of the model of `sr_distances_part_create`. -/
example : (partCreate Nat 5 5 .levenshtein 3).bind (fun l => .ok (l.map (·.len))) = .ok [4, 3, 3] := by decide +kernel

end Satyr.Distances.Memory
