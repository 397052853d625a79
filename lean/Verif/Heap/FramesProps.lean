import Verif.Heap.FramesModel
import Verif.Heap.ReportDirLemmas
import Verif.Heap.Json
/-!
# Removing frames from threads in memory

C158: memory after frames are removed.
-/
namespace Satyr.Heap
open Satyr.CStr

/-! ## Lemmas -/

theorem Adds.split {b m : Mem} {f g : List Ptr} (h : Adds b m (f ++ g)) : Adds b (Heap.erase m g) f ∧ Adds (Heap.erase m g) m g := by
  obtain ⟨h1, h2, h3, h4⟩ := h
  obtain ⟨n1, n2, n3⟩ := List.nodup_append.1 h1
  refine ⟨⟨n1, fun x hx => h2 x (by simp [hx]), fun x hx => ?_, fun x hx => ?_⟩, ⟨n2, fun x hx => if_pos hx, fun x hx => h3 x (by simp [hx]), fun x hx => (if_neg hx).symm⟩⟩
  · rw [Heap.erase, if_neg fun hg => n3 x hx x hg rfl]
    exact h3 x (by simp [hx])
  · rw [Heap.erase]
    split
    · rename_i hg; exact (h2 x (by simp [hg])).symm
    · rename_i hg; exact h4 x (by simp [hx, hg])

/-- Changing a block that is below. -/
theorem Adds.below {b m : Mem} {f : List Ptr} (h : Adds b m f) {p : Ptr} (hp : p ∉ f) (c : Cell) : Adds (b.set p (some c)) (m.set p (some c)) f := by
  refine ⟨h.nodup, fun x hx => ?_, fun x hx => ?_, fun x hx => ?_⟩
  · rw [set_ne _ _ fun e : x = p => hp (e ▸ hx)]; exact h.fresh x hx
  · rw [set_ne _ _ fun e : x = p => hp (e ▸ hx)]; exact h.used x hx
  · by_cases e : x = p
    · rw [e, set_eq, set_eq]
    · rw [set_ne _ _ e, set_ne _ _ e]; exact h.same x hx

theorem set_kept {m : Mem} {p : Ptr} {c : Cell} (h : m p = some c) : m.set p (some c) = m := by
  funext x
  by_cases e : x = p
  · rw [e, set_eq, h]
  · rw [set_ne _ _ e]

theorem set_again (m : Mem) (p : Ptr) (c c' : Option Cell) : (m.set p c).set p c' = m.set p c' := by
  funext x
  by_cases e : x = p
  · rw [e, set_eq, set_eq]
  · rw [set_ne _ _ e, set_ne _ _ e, set_ne _ _ e]

theorem Holds.join {m m' : Mem} {k d ts cr a b c e next p g fn} {r : Record} (hp : m p = some (.record r)) (h : Holds m (.cons k d ts cr a b c e .nil) false p g)
    (hg : g.Nodup) {q : Ptr} (hr : m' p = some (.record { r with next := q })) (hm : ∀ x ∈ g, x ≠ p → m' x = m x) (hn : Holds m' next true q fn) :
    Holds m' (.cons k d ts cr a b c e next) true p (g ++ fn) := by
  obtain ⟨r', fs, fa, fb, fc, fe, fn', h0, h1, h2, h3, h4, h5, ha, hb, hc, he, ⟨_, rfl⟩, rfl⟩ := h
  rw [hp] at h1; cases h1
  have hnp := (List.nodup_cons.1 hg).1
  have keep : ∀ {l : List Ptr}, (∀ y ∈ l, y ∈ fs ++ (fa ++ (fb ++ (fc ++ (fe ++ []))))) → ∀ y ∈ l, m' y = m y :=
    fun hl y hy => hm y (by simp only [List.mem_cons]; exact .inr (hl y hy)) fun e : y = p => hnp (e ▸ hl y hy)
  exact ⟨_, fs, fa, fb, fc, fe, fn, h0, hr, h2, h3, h4, h5.congr (keep (by simp +contextual)), ha.congr (keep (by simp +contextual)),
    hb.congr (keep (by simp +contextual)), hc.congr (keep (by simp +contextual)), he.congr (keep (by simp +contextual)), hn, by simp⟩

/-- The link to the first frame, or to the one after `prev`. -/
def linked (prev : Ptr) (h : Record) (q : Ptr) : Record := if prev ≠ 0 then { h with next := q } else { h with a := q }

theorem setLink_spec {t prev q : Ptr} {m : Mem} {h : Record} (hh : m (if prev ≠ 0 then prev else t) = some (.record h)) :
    setLink t prev q m = .ok (m.set (if prev ≠ 0 then prev else t) (some (.record (linked prev h q)))) := by
  unfold setLink linked
  split
  · rename_i h0; rw [if_pos h0] at hh; rw [put_spec _ hh]
  · rename_i h0; rw [if_neg h0] at hh; rw [put_spec _ hh]

theorem removeLoop_spec {k d ts cr a b' c e post} {t frame : Ptr} {ks : List Kind} (hr : .report ∉ ks) (pre : Chain) : ∀ {n : Nat} {prev p : Ptr} {b m : Mem} {g : List Ptr} {h : Record},
    (pre.append (.cons k d ts cr a b' c e post)).size + 1 < n → (pre.append (.cons k d ts cr a b' c e post)).Typed ks →
    Holds m (pre.append (.cons k d ts cr a b' c e post)) true p g → Adds b m g → frame = nth m p pre.length →
    b (if prev ≠ 0 then prev else t) = some (.record h) → linked prev h p = h →
    ∃ q m' g', removeLoop t frame n prev p m = .ok (true, m') ∧ Holds m' (pre.append post) true q g' ∧
      Adds (b.set (if prev ≠ 0 then prev else t) (some (.record (linked prev h q)))) m' g' := by
  induction pre with
  | nil =>
    intro n prev p b m g h hn ht hv hA hf hb hl
    obtain ⟨r, g1, fn, h1, h0, hpg, hg, hnx, rfl⟩ := Holds.split hv
    obtain rfl : frame = p := hf
    rw [Chain.append, Chain.size] at hn
    have hx : (if prev ≠ 0 then prev else t) ∉ g1 ++ fn := fun hx => by rw [hA.fresh _ hx] at hb; cases hb
    have hm : m (if prev ≠ 0 then prev else t) = some (.record h) := by rw [hA.same _ hx, hb]
    cases n with
    | zero => omega
    | succ n =>
      have hA1 := hA.below hx (.record (linked prev h r.next))
      have hk : ∀ y ∈ g1 ++ fn, m.set (if prev ≠ 0 then prev else t) (some (.record (linked prev h r.next))) y = m y :=
        fun y hy => set_ne _ _ fun e => hx (e ▸ hy)
      obtain ⟨n1, n2, n3⟩ := List.nodup_append.1 hA.nodup
      have hA2 := (hA1.perm List.perm_append_comm).split.1
      rw [removeLoop, if_neg h0, readRecord, h1]
      dsimp only
      rw [bind_ok, if_pos rfl, setLink_spec hm, bind_ok, Heap.free_spec _ n false _ g1 _ ks (by simp only [Chain.size]; omega) (Chain.Typed.first ht)
        (Chain.constantReporter (Chain.Typed.first ht) hr) (hg.congr fun y hy => hk y (by simp [hy])) n1, bind_ok]
      refine ⟨r.next, _, fn, rfl, ?_, hA2⟩
      refine (hnx.congr fun y hy => hk y (by simp [hy])).congr (erase_apart _ fun x hx hy => n3 x hy x hx rfl)
  | cons k1 d1 ts1 cr1 a1 b1 c1 e1 next _ _ _ _ ih =>
    intro n prev p b m g h hn ht hv hA hf hb hl
    obtain ⟨r, g1, fn, h1, h0, hpg, hg, hnx, rfl⟩ := Holds.split hv
    obtain ⟨n1, n2, n3⟩ := List.nodup_append.1 hA.nodup
    rw [Chain.append, Chain.size] at hn
    have hnth : frame = nth m r.next next.length := by
      rw [hf, Chain.length, nth, h1]
    have hne : p ≠ frame := by
      intro e
      refine n3 p hpg p ?_ rfl
      rw [e, hnth]
      exact (nth_congr (m' := m) hnx (fun _ _ => rfl) (by rw [length_append]; simp [Chain.length])).2
    cases n with
    | zero => omega
    | succ n =>
      obtain ⟨s1, s2⟩ := hA.split
      have hb2 : Heap.erase m fn (if p ≠ 0 then p else t) = some (.record r) := by
        rw [if_pos h0, Heap.erase, if_neg fun hy => n3 p hpg p hy rfl, h1]
      have hl2 : linked p r r.next = r := by rw [linked, if_pos h0]
      obtain ⟨q, m', g', i1, i2, i3⟩ := ih (n := n) (prev := p) (by omega) ht.2.2.1 hnx s2 hnth hb2 hl2
      rw [if_pos h0, linked, if_pos h0] at i3
      rw [removeLoop, if_neg h0, readRecord, h1]
      dsimp only
      rw [bind_ok, if_neg hne]
      have s3 := s1.set hpg (.record { r with next := q })
      have hA3 := s3.trans i3
      refine ⟨p, m', g1 ++ g', i1, ?_, ?_⟩
      · have hx : ∀ y ∈ g1, y ∉ g' := fun y hy hy' => (List.nodup_append.1 hA3.nodup).2.2 y hy y hy' rfl
        refine Holds.join h1 hg n1 (q := q) ?_ (fun y hy hyp => ?_) i2
        · rw [i3.same p (hx p hpg), set_eq]
        · rw [i3.same y (hx y hy), set_ne _ _ hyp, Heap.erase, if_neg fun hz => n3 y hy y hz rfl]
      · rw [hl, set_kept hb]
        exact hA3

theorem removeLoop_none {t frame : Ptr} (v : Chain) : ∀ {n : Nat} {prev p : Ptr} {m : Mem} {g : List Ptr}, v.size + 1 < n → Holds m v true p g →
    (∀ i < v.length, nth m p i ≠ frame) → removeLoop t frame n prev p m = .ok (false, m) := by
  induction v with
  | nil =>
    rintro n prev p m g hn ⟨rfl, rfl⟩ _
    cases n with
    | zero => omega
    | succ n => rw [removeLoop, if_pos rfl]
  | cons k d ts cr a b c e next _ _ _ _ ih =>
    intro n prev p m g hn hv hf
    obtain ⟨r, g1, fn, h1, h0, hpg, hg, hnx, rfl⟩ := hv.split
    rw [Chain.size] at hn
    cases n with
    | zero => omega
    | succ n =>
      rw [removeLoop, if_neg h0, readRecord, h1]
      dsimp only
      rw [bind_ok, if_neg (show p ≠ frame from hf 0 (by simp [Chain.length]))]
      refine ih (by omega) hnx fun i hi => ?_
      have := hf (i + 1) (by rw [Chain.length]; omega)
      rwa [nth, h1] at this

theorem findLoop_none {frame : Ptr} (v : Chain) : ∀ {n : Nat} {p : Ptr} {m : Mem} {g : List Ptr}, v.size + 1 < n → Holds m v true p g →
    (∀ i < v.length, nth m p i ≠ frame) → findLoop frame n p m = .ok false := by
  induction v with
  | nil =>
    rintro n p m g hn ⟨rfl, rfl⟩ _
    cases n with
    | zero => omega
    | succ n => rw [findLoop, if_pos rfl]
  | cons k d ts cr a b c e next _ _ _ _ ih =>
    intro n p m g hn hv hf
    obtain ⟨r, g1, fn, h1, h0, hpg, hg, hnx, rfl⟩ := hv.split
    rw [Chain.size] at hn
    cases n with
    | zero => omega
    | succ n =>
      have h2 : p ≠ frame := hf 0 (by simp [Chain.length])
      rw [findLoop, if_neg h0, if_neg h2, readRecord, h1]
      dsimp only
      rw [bind_ok]
      refine ih (by omega) hnx fun i hi => ?_
      have := hf (i + 1) (by rw [Chain.length]; omega)
      rwa [nth, h1] at this

theorem findLoop_some {frame : Ptr} (v : Chain) : ∀ {n i : Nat} {p : Ptr} {m : Mem} {g : List Ptr}, v.size + 1 < n → Holds m v true p g →
    i < v.length → nth m p i = frame → findLoop frame n p m = .ok true := by
  induction v with
  | nil => intro n i p m g _ _ hi; simp [Chain.length] at hi
  | cons k d ts cr a b c e next _ _ _ _ ih =>
    intro n i p m g hn hv hi hf
    obtain ⟨r, g1, fn, h1, h0, hpg, hg, hnx, rfl⟩ := hv.split
    rw [Chain.size] at hn
    cases n with
    | zero => omega
    | succ n =>
      rw [findLoop, if_neg h0]
      by_cases h2 : p = frame
      · rw [if_pos h2]
      rw [if_neg h2, readRecord, h1]
      dsimp only
      rw [bind_ok]
      cases i with
      | zero => exact absurd hf h2
      | succ i =>
        rw [nth, h1] at hf
        exact ih (i := i) (by omega) hnx (by rw [Chain.length] at hi; omega) hf

theorem aboveLoop_spec {post : Chain} (hpost : post ≠ .nil) {t frame : Ptr} {ks : List Kind} (hr : .report ∉ ks) (pre : Chain) : ∀ {n : Nat} {b m : Mem} {g : List Ptr} {h : Record},
    (pre.append post).size + 1 < n → (pre.append post).Typed ks → b t = some (.record h) →
    Holds m (pre.append post) true h.a g → Adds b m g → frame = nth m h.a pre.length →
    ∃ m' g', aboveLoop t frame n m = .ok m' ∧ Holds m' post true frame g' ∧ Adds (b.set t (some (.record { h with a := frame }))) m' g' := by
  induction pre with
  | nil =>
    intro n b m g h hn ht hb hv hA hf
    obtain rfl : frame = h.a := hf
    have hx : t ∉ g := fun hx => by rw [hA.fresh _ hx] at hb; cases hb
    cases n with
    | zero => omega
    | succ n =>
      rw [aboveLoop, readRecord, hA.same t hx, hb]
      dsimp only
      rw [bind_ok, if_pos rfl]
      refine ⟨m, g, rfl, hv, ?_⟩
      rw [set_kept hb]; exact hA
  | cons k1 d1 ts1 cr1 a1 b1 c1 e1 next _ _ _ _ ih =>
    intro n b m g h hn ht hb hv hA hf
    obtain ⟨r, g1, fn, h1, h0, hpg, hg, hnx, rfl⟩ := Holds.split hv
    obtain ⟨n1, n2, n3⟩ := List.nodup_append.1 hA.nodup
    rw [Chain.append, Chain.size] at hn
    have hx : t ∉ g1 ++ fn := fun hx => by rw [hA.fresh _ hx] at hb; cases hb
    have hnth : frame = nth m r.next next.length := by rw [hf, Chain.length, nth, h1]
    have hpl : 0 < post.length := by
      cases post with
      | nil => exact absurd rfl hpost
      | cons => simp [Chain.length]
    have hin := nth_congr (m' := m) (i := next.length) hnx (fun _ _ => rfl) (by rw [length_append]; omega)
    have hne : h.a ≠ frame := by
      intro e
      refine n3 h.a hpg h.a ?_ rfl
      rw [e, hnth]
      exact hin.2
    cases n with
    | zero => omega
    | succ n =>
      rw [aboveLoop, readRecord, hA.same t hx, hb]
      dsimp only
      rw [bind_ok, if_neg hne, readRecord, h1]
      dsimp only
      rw [bind_ok, Heap.free_spec _ n false _ g1 _ ks (by simp only [Chain.size]; omega) (Chain.Typed.first ht)
        (Chain.constantReporter (Chain.Typed.first ht) hr) hg n1, bind_ok]
      have s1 := (hA.perm List.perm_append_comm).split.1
      have ht2 : Heap.erase m g1 t = some (.record h) := by
        rw [Heap.erase, if_neg fun hz => hx (by simp [hz]), hA.same t hx, hb]
      rw [put_spec _ ht2, bind_ok]
      have s2 := s1.below (p := t) (fun hz => hx (by simp [hz])) (.record { h with a := r.next })
      have hk : ∀ y ∈ fn, (Heap.erase m g1).set t (some (.record { h with a := r.next })) y = m y := fun y hy => by
        rw [set_ne _ _ fun e : y = t => hx (by simp [← e, hy]), erase_apart m (f := g1) (g := fn) (fun x hx hy => n3 x hy x hx rfl) y hy]
      obtain ⟨m', g', i1, i2, i3⟩ := ih (n := n) (h := { h with a := r.next }) (by omega) ht.2.2.1 (set_eq _ _ _) (hnx.congr hk) s2
        (by rw [hnth]; exact (nth_congr hnx hk (by rw [length_append]; omega)).1.symm)
      exact ⟨m', g', i1, i2, by rw [set_again] at i3; exact i3⟩

theorem belowLoop_spec {post : Chain} {t : Ptr} {ks : List Kind} (hr : .report ∉ ks) (pre : Chain) : ∀ {n i : Nat} {prev p : Ptr} {b m : Mem} {g : List Ptr} {h : Record},
    (pre.append post).size + 1 < n → (pre.append post).Typed ks → (pre.length = i ∨ post = .nil ∧ pre.length ≤ i) →
    Holds m (pre.append post) true p g → Adds b m g → b (if prev ≠ 0 then prev else t) = some (.record h) → linked prev h p = h →
    ∃ q m' g', belowLoop t n i prev p m = .ok m' ∧ Holds m' pre true q g' ∧
      Adds (b.set (if prev ≠ 0 then prev else t) (some (.record (linked prev h q)))) m' g' := by
  induction pre with
  | nil =>
    intro n i prev p b m g h hn ht hi hv hA hb hl
    have hx : (if prev ≠ 0 then prev else t) ∉ g := fun hx => by rw [hA.fresh _ hx] at hb; cases hb
    have hm : m (if prev ≠ 0 then prev else t) = some (.record h) := by rw [hA.same _ hx, hb]
    have hz : p = 0 ∨ i = 0 := by
      rcases hi with hi | ⟨rfl, _⟩
      · exact .inr hi.symm
      · exact .inl hv.1
    cases n with
    | zero => omega
    | succ n =>
      have hA1 := hA.below hx (.record (linked prev h 0))
      have hk : ∀ y ∈ g, m.set (if prev ≠ 0 then prev else t) (some (.record (linked prev h 0))) y = m y := fun y hy => set_ne _ _ fun e => hx (e ▸ hy)
      rw [belowLoop, if_pos hz, setLink_spec hm, bind_ok, Heap.free_spec _ n true _ g _ ks (by omega) ht
        (Chain.constantReporter ht hr) (hv.congr hk) hA.nodup, hA1.erase]
      exact ⟨0, _, [], rfl, ⟨rfl, rfl⟩, .refl _⟩
  | cons k1 d1 ts1 cr1 a1 b1 c1 e1 next _ _ _ _ ih =>
    intro n i prev p b m g h hn ht hi hv hA hb hl
    obtain ⟨r, g1, fn, h1, h0, hpg, hg, hnx, rfl⟩ := Holds.split hv
    obtain ⟨n1, n2, n3⟩ := List.nodup_append.1 hA.nodup
    rw [Chain.append, Chain.size] at hn
    rw [Chain.length] at hi
    cases n with
    | zero => omega
    | succ n =>
      obtain ⟨s1, s2⟩ := hA.split
      have hb2 : Heap.erase m fn (if p ≠ 0 then p else t) = some (.record r) := by
        rw [if_pos h0, Heap.erase, if_neg fun hy => n3 p hpg p hy rfl, h1]
      have hl2 : linked p r r.next = r := by rw [linked, if_pos h0]
      obtain ⟨q, m', g', i1, i2, i3⟩ := ih (n := n) (i := i - 1) (prev := p) (by omega) ht.2.2.1
        (by rcases hi with hi | ⟨hp, hi⟩; exacts [.inl (by omega), .inr ⟨hp, by omega⟩]) hnx s2 hb2 hl2
      rw [if_pos h0, linked, if_pos h0] at i3
      rw [belowLoop, if_neg (by rintro (h | h); exacts [h0 h, by omega]), readRecord, h1]
      dsimp only
      rw [bind_ok]
      have s3 := s1.set hpg (.record { r with next := q })
      have hA3 := s3.trans i3
      refine ⟨p, m', g1 ++ g', i1, ?_, ?_⟩
      · have hx : ∀ y ∈ g1, y ∉ g' := fun y hy hy' => (List.nodup_append.1 hA3.nodup).2.2 y hy y hy' rfl
        refine Holds.join h1 hg n1 (q := q) ?_ (fun y hy hyp => ?_) i2
        · rw [i3.same p (hx p hpg), set_eq]
        · rw [i3.same y (hx y hy), set_ne _ _ hyp, Heap.erase, if_neg fun hz => n3 y hy y hz rfl]
      · rw [hl, set_kept hb]
        exact hA3

/-! ## Properties -/

theorem Holds.thread {m : Mem} {k d ts w x b c e} {t : Ptr} {f : List Ptr} (h : Holds m (.cons k d ts w x b c e .nil) false t f) {base : Mem} (hA : Adds base m f) :
    ∃ r fx, m t = some (.record r) ∧ Holds m x true r.a fx ∧ Adds (Heap.erase m fx) m fx ∧ Heap.erase m fx t = some (.record r) ∧
      ∀ {m' : Mem} {y q g}, Holds m' y true q g → Adds ((Heap.erase m fx).set t (some (.record { r with a := q }))) m' g →
        ∃ f', m' t = some (.record { r with a := q }) ∧ Holds m' (.cons k d ts w y b c e .nil) false t f' ∧ Adds base m' f' := by
  obtain ⟨r, fs, fa, fb, fc, fe, fn, h0, h1, h2, h3, h4, h5, ha, hb, hc, he, ⟨_, rfl⟩, rfl⟩ := h
  have hA1 : Adds base m ((t :: (fs ++ (fb ++ (fc ++ fe)))) ++ fa) := hA.perm (by
    simp only [List.append_nil, List.cons_append, List.append_assoc, List.perm_cons]
    refine List.Perm.append_left _ ?_
    refine List.perm_append_comm.trans ?_
    simp)
  obtain ⟨s1, s2⟩ := hA1.split
  obtain ⟨n1, n2, n3⟩ := List.nodup_append.1 hA1.nodup
  have hout : ∀ y ∈ t :: (fs ++ (fb ++ (fc ++ fe))), y ∉ fa := fun y hy hz => n3 y hy y hz rfl
  have ht := (List.nodup_cons.1 n1).1
  refine ⟨r, fa, h1, ha, s2, by rw [Heap.erase, if_neg (hout t (by simp)), h1], fun {m' y q g} hy hB => ?_⟩
  have hC := (s1.set (p := t) (by simp) (.record { r with a := q })).trans hB
  have hx : ∀ y ∈ t :: (fs ++ (fb ++ (fc ++ fe))), y ∉ g := fun y hy hz => (List.nodup_append.1 hC.nodup).2.2 y hy y hz rfl
  have keep : ∀ {l : List Ptr}, (∀ y ∈ l, y ∈ fs ++ (fb ++ (fc ++ fe))) → ∀ y ∈ l, m' y = m y := fun hl y hy => by
    have hy' : y ∈ t :: (fs ++ (fb ++ (fc ++ fe))) := by simp only [List.mem_cons]; exact .inr (hl y hy)
    rw [hB.same y (hx y hy'), set_ne _ _ fun e : y = t => ht (e ▸ hl y hy), Heap.erase, if_neg (hout y hy')]
  refine ⟨t :: (fs ++ (g ++ (fb ++ (fc ++ (fe ++ []))))), by rw [hB.same t (hx t (by simp)), set_eq], ⟨{ r with a := q }, fs, g, fb, fc, fe, [], h0, by rw [hB.same t (hx t (by simp)), set_eq], h2, h3, h4,
    h5.congr (keep (by simp +contextual)), hy, hb.congr (keep (by simp +contextual)), hc.congr (keep (by simp +contextual)), he.congr (keep (by simp +contextual)),
    ⟨rfl, rfl⟩, rfl⟩, hC.perm ?_⟩
  simp only [List.append_nil, List.cons_append, List.append_assoc, List.perm_cons]
  refine List.Perm.append_left _ ?_
  refine List.Perm.trans ?_ List.perm_append_comm
  simp

/-- C158: removing the frame number `i` of a thread, which has `pre` before it and `post` after it: the thread has the other frames in their
order, the memory of this frame is given back, and all other memory, including that of the other frames, is as before. -/
theorem C158_remove {pre : Chain} {k d ts w k' d' ts' w' a' b' c' e' post b c e} {n : Nat} {t frame : Ptr} {base m : Mem} {f : List Ptr} {r : Record} {ks : List Kind}
    (h : Holds m (.cons k d ts w (pre.append (.cons k' d' ts' w' a' b' c' e' post)) b c e .nil) false t f) (hA : Adds base m f)
    (ht : (pre.append (.cons k' d' ts' w' a' b' c' e' post)).Typed ks) (hr : .report ∉ ks)
    (hn : (pre.append (.cons k' d' ts' w' a' b' c' e' post)).size + 1 < n) (hm : m t = some (.record r)) (hf : frame = nth m r.a pre.length) :
    ∃ m' f', removeFrame n t frame m = .ok (true, m') ∧ (∃ q, m' t = some (.record { r with a := q })) ∧
      Holds m' (.cons k d ts w (pre.append post) b c e .nil) false t f' ∧ Adds base m' f' := by
  obtain ⟨r', fx, h1, h2, h3, h4, h5⟩ := h.thread hA
  rw [hm] at h1; cases h1
  obtain ⟨q, m', g', i1, i2, i3⟩ := removeLoop_spec (t := t) hr pre (n := n) (prev := 0) hn ht h2 h3 hf (by rw [if_neg (by simp)]; exact h4) (by rw [linked, if_neg (by simp)])
  rw [if_neg (by simp), linked, if_neg (by simp)] at i3
  obtain ⟨f', j0, j1, j2⟩ := h5 i2 i3
  refine ⟨m', f', ?_, ⟨_, j0⟩, j1, j2⟩
  rw [removeFrame, readRecord, hm]
  exact i1

/-- C158: removing a frame that the thread does not have changes nothing. -/
theorem C158_remove_none {k d ts w x b c e} {n : Nat} {t frame : Ptr} {m : Mem} {f : List Ptr} {r : Record}
    (h : Holds m (.cons k d ts w x b c e .nil) false t f) (hn : x.size + 1 < n) (hm : m t = some (.record r)) (hf : ∀ i < x.length, nth m r.a i ≠ frame) :
    removeFrame n t frame m = .ok (false, m) ∧ removeAbove n t frame m = .ok (false, m) := by
  obtain ⟨r', fs, fa, fb, fc, fe, fn, h0, h1, h2, h3, h4, h5, ha, _⟩ := h
  rw [hm] at h1; cases h1
  constructor
  · rw [removeFrame, readRecord, hm]
    exact removeLoop_none x hn ha hf
  · rw [removeAbove, readRecord, hm]
    dsimp only
    rw [bind_ok, findLoop_none x hn ha hf]
    rfl

/-- C158: removing the frames above the frame number `i` of a thread: the thread has this frame and those after it, the memory of the frames
before it is given back, and all other memory is as before. -/
theorem C158_above {pre post : Chain} {k d ts w b c e} {n : Nat} {t frame : Ptr} {base m : Mem} {f : List Ptr} {r : Record} {ks : List Kind} (hpost : post ≠ .nil)
    (h : Holds m (.cons k d ts w (pre.append post) b c e .nil) false t f) (hA : Adds base m f) (ht : (pre.append post).Typed ks) (hr : .report ∉ ks)
    (hn : (pre.append post).size + 1 < n) (hm : m t = some (.record r)) (hf : frame = nth m r.a pre.length) :
    ∃ m' f', removeAbove n t frame m = .ok (true, m') ∧ (∃ q, m' t = some (.record { r with a := q })) ∧
      Holds m' (.cons k d ts w post b c e .nil) false t f' ∧ Adds base m' f' := by
  obtain ⟨r', fx, h1, h2, h3, h4, h5⟩ := h.thread hA
  rw [hm] at h1; cases h1
  obtain ⟨m', g', i1, i2, i3⟩ := aboveLoop_spec hpost hr pre hn ht h4 h2 h3 hf
  obtain ⟨f', j0, j1, j2⟩ := h5 i2 i3
  have hpl : 0 < post.length := by
    cases post with
    | nil => exact absurd rfl hpost
    | cons => simp [Chain.length]
  refine ⟨m', f', ?_, ⟨_, j0⟩, j1, j2⟩
  rw [removeAbove, readRecord, hm]
  dsimp only
  rw [bind_ok, findLoop_some (pre.append post) hn h2 (i := pre.length) (by rw [length_append]; omega) hf.symm]
  rw [bind_ok, if_neg (by simp), i1]
  rfl

/-- C158: removing the frames of a thread from number `i` on: the thread has its first `i` frames `pre`, or all if there are not so many, the
memory of the others is given back, and all other memory is as before. -/
theorem C158_below {pre post : Chain} {k d ts w b c e} {n i : Nat} {t : Ptr} {base m : Mem} {f : List Ptr} {r : Record} {ks : List Kind}
    (h : Holds m (.cons k d ts w (pre.append post) b c e .nil) false t f) (hA : Adds base m f) (ht : (pre.append post).Typed ks) (hr : .report ∉ ks)
    (hn : (pre.append post).size + 1 < n) (hm : m t = some (.record r)) (hi : pre.length = i ∨ post = .nil ∧ pre.length ≤ i) :
    ∃ m' f', removeBelow n i t m = .ok m' ∧ (∃ q, m' t = some (.record { r with a := q })) ∧
      Holds m' (.cons k d ts w pre b c e .nil) false t f' ∧ Adds base m' f' := by
  obtain ⟨r', fx, h1, h2, h3, h4, h5⟩ := h.thread hA
  rw [hm] at h1; cases h1
  obtain ⟨q, m', g', i1, i2, i3⟩ := belowLoop_spec (t := t) hr pre (n := n) (prev := 0) hn ht hi h2 h3 (by rw [if_neg (by simp)]; exact h4) (by rw [linked, if_neg (by simp)])
  rw [if_neg (by simp), linked, if_neg (by simp)] at i3
  obtain ⟨f', j0, j1, j2⟩ := h5 i2 i3
  refine ⟨m', f', ?_, ⟨_, j0⟩, j1, j2⟩
  rw [removeBelow, readRecord, hm]
  exact i1

/-! ## Non-vacuity -/

/-- A thread with three frames, at 1; the frames are at 2, 4 and 6, and 9 is another thread after it. -/
def thread158 : Mem := fun x =>
  match x with
  | 1 => some (.record { kind := .jsTrace, data := [0], texts := [0], a := 2, next := 9 })
  | 2 => some (.record { kind := .jsFrame, data := [1, 1], texts := [3, 0], next := 4 })
  | 3 => some (.text c!"a")
  | 4 => some (.record { kind := .jsFrame, data := [2, 2], texts := [0, 5], next := 6 })
  | 5 => some (.text c!"b")
  | 6 => some (.record { kind := .jsFrame, data := [3, 3], texts := [7, 8] })
  | 7 => some (.text c!"c")
  | 8 => some (.text c!"d")
  | 9 => some (.text c!"other")
  | _ => none

/-- The result, the pointers to frames from each structure, and the addresses in use. -/
def seen158 (o : Out (Bool × Mem)) : Option (Bool × List (Ptr × Ptr) × List Ptr) :=
  match o with
  | .ok (x, m) => some (x, (List.range 12).filterMap fun p => (match m p with
      | some (.record r) => some (r.a, r.next)
      | _ => none), (List.range 12).filter fun p => (m p).isSome)
  | _ => none

def frame158 (l c : Int) (x y : Option Str) (next : Chain) : Chain := .cons .jsFrame [l, c] [x, y] 0 .nil .nil .nil .nil next

-- The conditions of the theorems hold for it.
example : Holds thread158 (.cons .jsTrace [0] [none] 0 ((frame158 1 1 (some c!"a") none .nil).append (frame158 2 2 none (some c!"b") (frame158 3 3 (some c!"c") (some c!"d") .nil)))
      .nil .nil .nil .nil) false 1 [1, 2, 3, 4, 5, 6, 7, 8] ∧
    Adds (fun x => if x = 9 then some (.text c!"other") else none) thread158 [1, 2, 3, 4, 5, 6, 7, 8] ∧
    ((frame158 1 1 (some c!"a") none .nil).append (frame158 2 2 none (some c!"b") (frame158 3 3 (some c!"c") (some c!"d") .nil))).Typed [.jsFrame] ∧
    4 = nth thread158 2 (frame158 1 1 (some c!"a") none .nil).length := by
  refine ⟨?_, ⟨by decide, by decide, by decide, ?_⟩, ?_, rfl⟩
  · refine ⟨_, [], [2, 3, 4, 5, 6, 7, 8], [], [], [], [], by decide, rfl, rfl, rfl, rfl, .null .nil, ?_, ⟨rfl, rfl⟩, ⟨rfl, rfl⟩, ⟨rfl, rfl⟩, ⟨rfl, rfl⟩, rfl⟩
    refine ⟨_, [3], [], [], [], [], [4, 5, 6, 7, 8], by decide, rfl, rfl, rfl, rfl, .some (by decide) rfl (.null .nil), ⟨rfl, rfl⟩, ⟨rfl, rfl⟩, ⟨rfl, rfl⟩, ⟨rfl, rfl⟩, ?_, rfl⟩
    refine ⟨_, [5], [], [], [], [], [6, 7, 8], by decide, rfl, rfl, rfl, rfl, .null (.some (by decide) rfl .nil), ⟨rfl, rfl⟩, ⟨rfl, rfl⟩, ⟨rfl, rfl⟩, ⟨rfl, rfl⟩, ?_, rfl⟩
    exact ⟨_, [7, 8], [], [], [], [], [], by decide, rfl, rfl, rfl, rfl, .some (by decide) rfl (.some (by decide) rfl .nil), ⟨rfl, rfl⟩, ⟨rfl, rfl⟩, ⟨rfl, rfl⟩, ⟨rfl, rfl⟩, ⟨rfl, rfl⟩, rfl⟩
  · intro x hx
    simp only [List.mem_cons, List.not_mem_nil, or_false, not_or] at hx
    unfold thread158
    split <;> simp_all
  · simp [frame158, Chain.append, Chain.Typed, MemberOk, slots, texts]

example : seen158 (removeFrame 9 1 2 thread158) = some (true, [(4, 9), (0, 6), (0, 0)], [1, 4, 5, 6, 7, 8, 9]) := by decide +kernel
example : seen158 (removeFrame 9 1 4 thread158) = some (true, [(2, 9), (0, 6), (0, 0)], [1, 2, 3, 6, 7, 8, 9]) := by decide +kernel
example : seen158 (removeFrame 9 1 6 thread158) = some (true, [(2, 9), (0, 4), (0, 0)], [1, 2, 3, 4, 5, 9]) := by decide +kernel
example : seen158 (removeFrame 9 1 9 thread158) = some (false, [(2, 9), (0, 4), (0, 6), (0, 0)], [1, 2, 3, 4, 5, 6, 7, 8, 9]) := by decide +kernel
example : seen158 (removeAbove 9 1 2 thread158) = some (true, [(2, 9), (0, 4), (0, 6), (0, 0)], [1, 2, 3, 4, 5, 6, 7, 8, 9]) := by decide +kernel
example : seen158 (removeAbove 9 1 6 thread158) = some (true, [(6, 9), (0, 0)], [1, 6, 7, 8, 9]) := by decide +kernel
example : seen158 (removeAbove 9 1 9 thread158) = some (false, [(2, 9), (0, 4), (0, 6), (0, 0)], [1, 2, 3, 4, 5, 6, 7, 8, 9]) := by decide +kernel

example : seen158 ((removeBelow 9 0 1 thread158).bind fun m => .ok (true, m)) = some (true, [(0, 9)], [1, 9]) := by decide +kernel
example : seen158 ((removeBelow 9 2 1 thread158).bind fun m => .ok (true, m)) = some (true, [(2, 9), (0, 4), (0, 0)], [1, 2, 3, 4, 5, 9]) := by decide +kernel
example : seen158 ((removeBelow 9 5 1 thread158).bind fun m => .ok (true, m)) = some (true, [(2, 9), (0, 4), (0, 6), (0, 0)], [1, 2, 3, 4, 5, 6, 7, 8, 9]) := by decide +kernel

end Satyr.Heap
