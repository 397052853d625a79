import Verif.Heap.Free
/-!
# Lists of structures

C101: appending a list gives the list with the other one at its end. C102: removing all threads but one.
-/
namespace Satyr.Heap
open Satyr.CStr

/-! ## Specification -/

/-- One list after the other. -/
def Chain.append : Chain → Chain → Chain
  | .nil, v => v
  | .cons k d ts w a b c e next, v => .cons k d ts w a b c e (next.append v)

/-- The number of structures in the list itself. -/
def Chain.length : Chain → Nat
  | .nil => 0
  | .cons _ _ _ _ _ _ _ _ next => next.length + 1

/-- The structure number `i` of the list, alone. -/
def Chain.only : Chain → Nat → Chain
  | .nil, _ => .nil
  | .cons k d ts w a b c e _, 0 => .cons k d ts w a b c e .nil
  | .cons _ _ _ _ _ _ _ _ next, i + 1 => next.only i

/-- The address of the structure number `i` of the list at `p`. -/
def nth (m : Mem) : Ptr → Nat → Ptr
  | p, 0 => p
  | p, i + 1 =>
    match m p with
    | some (.record r) => nth m r.next i
    | _ => 0

/-! ## Lemmas: appending -/

theorem appendLoop_spec {v w : Chain} : ∀ {n : Nat} {m : Mem} {p q : Ptr} {f g : List Ptr}, v ≠ .nil → v.size ≤ n →
    Holds m v true p f → Holds m w true q g → (f ++ g).Nodup →
    ∃ m', appendLoop n p q m = .ok m' ∧ Holds m' (v.append w) true p (f ++ g) ∧ ∀ x, x ∉ f → m' x = m x := by
  induction v with
  | nil => exact fun h => absurd rfl h
  | cons k d ts cr a b c e next _ _ _ _ ihn =>
    intro n m p q f g _ hsize hv hw hf
    rw [Chain.size] at hsize
    cases n with
    | zero => omega
    | succ n =>
      obtain ⟨r, fs, fa, fb, fc, fe, fn, h0, h1, rfl, rfl, rfl, h5, ha, hb, hc, he, hn, rfl⟩ := hv
      rw [if_pos rfl] at hn
      have hassoc : p :: (fs ++ (fa ++ (fb ++ (fc ++ (fe ++ fn))))) ++ g =
          p :: (fs ++ (fa ++ (fb ++ (fc ++ (fe ++ (fn ++ g)))))) := by simp
      rw [hassoc] at hf ⊢
      have hp : ∀ {l : List Ptr}, (∀ x ∈ l, x ∈ fs ++ (fa ++ (fb ++ (fc ++ (fe ++ (fn ++ g)))))) → p ∉ l :=
        fun h h' => (List.nodup_cons.1 hf).1 (h p h')
      rw [appendLoop, readRecord, h1]
      simp only [bind_ok]
      by_cases hnil : next = .nil
      · subst hnil
        obtain ⟨h6, rfl⟩ := hn
        rw [if_neg (by simp [h6]), writeRecord, h1]
        refine ⟨_, rfl, ?_, fun x hx => set_ne _ _ fun e : x = p => hx (e ▸ List.mem_cons_self)⟩
        have keep : ∀ {l : List Ptr}, (∀ x ∈ l, x ∈ fs ++ (fa ++ (fb ++ (fc ++ (fe ++ ([] ++ g)))))) → ∀ r', ∀ x ∈ l,
            m.set p (some (.record r')) x = m x := fun hl r' x hx => set_ne _ _ fun e : x = p => hp hl (e ▸ hx)
        refine ⟨_, fs, fa, fb, fc, fe, [] ++ g, h0, set_eq _ _ _, rfl, rfl, rfl, h5.congr (keep (by simp +contextual) _),
          ha.congr (keep (by simp +contextual) _), hb.congr (keep (by simp +contextual) _),
          hc.congr (keep (by simp +contextual) _), he.congr (keep (by simp +contextual) _), ?_, rfl⟩
        rw [if_pos rfl]
        exact hw.congr (keep (by simp +contextual) _)
      · rw [if_pos (hn.ne hnil)]
        have hfn : (fn ++ g).Nodup := by
          have h := (List.nodup_cons.1 hf).2
          exact ((((h.of_append_right).of_append_right).of_append_right).of_append_right).of_append_right
        obtain ⟨m', e1, e2, e3⟩ := ihn (n := n) hnil (by omega) hn hw hfn
        refine ⟨m', e1, ?_, fun x hx => e3 x fun h => hx (by simp [h])⟩
        have hf' := (List.nodup_cons.1 hf).2
        have d1 := (List.nodup_append.1 hf').2.2
        have hf' := hf'.of_append_right
        have d2 := (List.nodup_append.1 hf').2.2
        have hf' := hf'.of_append_right
        have d3 := (List.nodup_append.1 hf').2.2
        have hf' := hf'.of_append_right
        have d4 := (List.nodup_append.1 hf').2.2
        have hf' := hf'.of_append_right
        have d5 := (List.nodup_append.1 hf').2.2
        refine ⟨r, fs, fa, fb, fc, fe, fn ++ g, h0, ?_, rfl, rfl, rfl, h5.congr fun x hx => e3 x fun h => ?_,
          ha.congr fun x hx => e3 x fun h => ?_, hb.congr fun x hx => e3 x fun h => ?_,
          hc.congr fun x hx => e3 x fun h => ?_, he.congr fun x hx => e3 x fun h => ?_, ?_, rfl⟩
        · rw [e3 p (hp (by simp +contextual)), h1]
        · exact d1 x hx x (by simp [h]) rfl
        · exact d2 x hx x (by simp [h]) rfl
        · exact d3 x hx x (by simp [h]) rfl
        · exact d4 x hx x (by simp [h]) rfl
        · exact d5 x hx x (by simp [h]) rfl
        · rw [if_pos rfl]; exact e2

/-! ## Lemmas: removing threads -/

/-- The first structure of a list, alone, and the rest. -/
theorem Holds.split {m : Mem} {k d ts cr a b c e next p f} (h : Holds m (.cons k d ts cr a b c e next) true p f) :
    ∃ r g fn, m p = some (.record r) ∧ p ≠ 0 ∧ p ∈ g ∧ Holds m (.cons k d ts cr a b c e .nil) false p g ∧
      Holds m next true r.next fn ∧ f = g ++ fn := by
  obtain ⟨r, fs, fa, fb, fc, fe, fn, h0, h1, h2, h3, h4, h5, ha, hb, hc, he, hn, rfl⟩ := h
  rw [if_pos rfl] at hn
  exact ⟨r, p :: (fs ++ (fa ++ (fb ++ (fc ++ (fe ++ []))))), fn, h1, h0, by simp,
    ⟨r, fs, fa, fb, fc, fe, [], h0, h1, h2, h3, h4, h5, ha, hb, hc, he, ⟨rfl, rfl⟩, rfl⟩, hn, by simp⟩

theorem Chain.Typed.first {k d ts cr a b c e next ks} (h : (Chain.cons k d ts cr a b c e next).Typed ks) :
    (Chain.cons k d ts cr a b c e .nil).Typed ks := by
  obtain ⟨h1, h2, _, h4⟩ := h
  exact ⟨h1, h2, trivial, h4⟩

theorem exceptLoop_all {v : Chain} : ∀ {n : Nat} {m : Mem} {p t : Ptr} {f : List Ptr} {ks : List Kind}, v.size + 1 < n → v.Typed ks →
    .report ∉ ks → Holds m v true p f → f.Nodup → t ∉ f → exceptLoop n p t m = .ok (erase m f) := by
  induction v with
  | nil =>
    rintro n m p t f ks hn _ _ ⟨rfl, rfl⟩ _ _
    cases n with
    | zero => omega
    | succ n => rw [exceptLoop, if_pos rfl, erase_nil]
  | cons k d ts cr a b c e next _ _ _ _ ihn =>
    intro n m p t f ks hsize ht hr hv hf htf
    obtain ⟨r, g, fn, h1, h0, hpg, hg, hn, rfl⟩ := hv.split
    obtain ⟨hg1, hn1, hgn⟩ := List.nodup_append.1 hf
    rw [Chain.size] at hsize
    cases n with
    | zero => omega
    | succ n =>
      rw [exceptLoop, if_neg h0, readRecord, h1]
      simp only [bind_ok]
      rw [if_pos (fun e => htf (by rw [← e]; simp [hpg])), free_spec _ n false p g m ks
        (by rw [Chain.size]; simp only [Chain.size]; omega) ht.first (Chain.constantReporter ht.first hr) hg hg1]
      simp only [bind_ok]
      rw [ihn (by omega) ht.2.2.1 hr (hn.congr (erase_apart m fun x hx hy => hgn x hy x hx rfl)) hn1
        (fun h => htf (by simp [h])), erase_erase]

theorem nth_congr {v : Chain} : ∀ {m m' : Mem} {p : Ptr} {f : List Ptr} {i : Nat}, Holds m v true p f → (∀ x ∈ f, m' x = m x) → i < v.length →
    nth m' p i = nth m p i ∧ nth m p i ∈ f := by
  induction v with
  | nil => intro m m' p f i _ _ h; simp [Chain.length] at h
  | cons k d ts cr a b c e next _ _ _ _ ihn =>
    intro m m' p f i hv hm hi
    obtain ⟨r, g, fn, h1, h0, hpg, hg, hn, rfl⟩ := hv.split
    cases i with
    | zero => exact ⟨rfl, by simp [nth, hpg]⟩
    | succ i =>
      rw [nth, nth, hm p (by simp [hpg]), h1]
      dsimp only
      obtain ⟨e1, e2⟩ := ihn hn (fun x hx => hm x (by simp [hx])) (by simpa [Chain.length] using hi)
      exact ⟨e1, by simp [e2]⟩

theorem exceptLoop_one {v : Chain} : ∀ {n : Nat} {m : Mem} {p : Ptr} {f : List Ptr} {ks : List Kind} {i : Nat}, v.size + 1 < n → v.Typed ks →
    .report ∉ ks → Holds m v true p f → f.Nodup → i < v.length →
    ∃ g h, exceptLoop n p (nth m p i) m = .ok (erase m g) ∧ Holds m (v.only i) false (nth m p i) h ∧
      (∀ x, x ∈ f ↔ x ∈ g ∨ x ∈ h) ∧ (∀ x ∈ g, x ∉ h) ∧ h.Nodup := by
  induction v with
  | nil => intro n m p f ks i _ _ _ _ _ h; simp [Chain.length] at h
  | cons k d ts cr a b c e next _ _ _ _ ihn =>
    intro n m p f ks i hsize ht hr hv hf hi
    obtain ⟨r, g, fn, h1, h0, hpg, hg, hn, rfl⟩ := hv.split
    obtain ⟨hg1, hn1, hgn⟩ := List.nodup_append.1 hf
    rw [Chain.size] at hsize
    cases n with
    | zero => omega
    | succ n =>
      cases i with
      | zero =>
        refine ⟨fn, g, ?_, hg, fun x => by rw [List.mem_append, or_comm], fun x hx hy => hgn x hy x hx rfl, hg1⟩
        rw [nth, exceptLoop, if_neg h0, readRecord, h1]
        simp only [bind_ok]
        rw [if_neg (by simp)]
        simp only [bind_ok]
        exact exceptLoop_all (by omega) ht.2.2.1 hr hn hn1 fun h => hgn p hpg p h rfl
      | succ i =>
        have hi' : i < next.length := by simpa [Chain.length] using hi
        have hnth : nth m p (i + 1) = nth m r.next i := by rw [nth, h1]
        have hm1 : ∀ x ∈ fn, erase m g x = m x := erase_apart m fun x hx hy => hgn x hy x hx rfl
        obtain ⟨c1, c2⟩ := nth_congr hn hm1 hi'
        obtain ⟨g', h', e1, e2, e3, e4, e5⟩ := ihn (n := n) (by omega) ht.2.2.1 hr (hn.congr hm1) hn1 hi'
        rw [c1] at e1 e2
        refine ⟨g ++ g', h', ?_, ?_, ?_, ?_, e5⟩
        · rw [hnth, exceptLoop, if_neg h0, readRecord, h1]
          simp only [bind_ok]
          rw [if_pos (fun e : p = nth m r.next i => hgn p hpg p (by rw [e]; exact c2) rfl), free_spec _ n false p g m ks
            (by rw [Chain.size]; simp only [Chain.size]; omega) ht.first (Chain.constantReporter ht.first hr) hg hg1]
          simp only [bind_ok]
          rw [e1, erase_erase]
        · rw [hnth]
          exact e2.congr fun x hx => (hm1 x ((e3 x).2 (.inr hx))).symm
        · intro x
          rw [List.mem_append, e3, List.mem_append, or_assoc]
        · intro x hx hy
          rcases List.mem_append.1 hx with hx | hx
          · exact hgn x hx x ((e3 x).2 (.inr hy)) rfl
          · exact e4 x hx hy

/-- Making a structure the last one of its list. -/
theorem Holds.last {m m' : Mem} {v : Chain} {p h} {r : Record} (hv : Holds m v false p h) (hr : m p = some (.record r)) (hh : h.Nodup)
    (hm : m' p = some (.record { r with next := 0 })) (hm' : ∀ x ∈ h, x ≠ p → m' x = m x) : Holds m' v true p h := by
  cases v with
  | nil => exact hv
  | cons k d ts cr a b c e next =>
    obtain ⟨r', fs, fa, fb, fc, fe, fn, h0, h1, h2, h3, h4, h5, ha, hb, hc, he, hn, rfl⟩ := hv
    rw [hr] at h1
    cases h1
    rw [if_neg (by simp)] at hn
    obtain ⟨rfl, rfl⟩ := hn
    have hp := (List.nodup_cons.1 hh).1
    have keep : ∀ {l : List Ptr}, (∀ x ∈ l, x ∈ fs ++ (fa ++ (fb ++ (fc ++ (fe ++ []))))) → ∀ x ∈ l, m' x = m x :=
      fun hl x hx => hm' x (List.mem_cons_of_mem _ (hl x hx)) fun e => hp (e ▸ hl x hx)
    refine ⟨_, fs, fa, fb, fc, fe, [], h0, hm, h2, h3, h4, h5.congr (keep (by simp +contextual)),
      ha.congr (keep (by simp +contextual)), hb.congr (keep (by simp +contextual)), hc.congr (keep (by simp +contextual)),
      he.congr (keep (by simp +contextual)), ?_, rfl⟩
    rw [if_pos rfl]
    exact ⟨rfl, rfl⟩

end Satyr.Heap
