import Verif.Heap.TextPython
/-!
# Reading stack traces from text: memory of lists of frames
-/
namespace Satyr.Heap
open Satyr.CStr
open Satyr.Text
open Satyr.Frames
open Satyr.Json (Value)

theorem set_same {m : Mem} {p : Ptr} {c : Option Cell} (h : m p = c) : m.set p c = m := by
  funext x
  unfold Mem.set
  split
  · rename_i e; rw [e, h]
  · rfl

/-- A frame in front of the list. -/
theorem prepend_spec {k j m₀ m p x kf m' q y} {s : Slot} {l : List Kind} (h : Built k j m₀ m p x) (hx : x.crash = none)
    (hf : Built kf .null m m' q y) (hy : y.crash = none) (hsz : (y.chain kf 0).size + x.a.size < weight j) (hslot : (slots k)[0]? = some (s, l))
    (hs : s.isList = true) (hty : (y.chain kf 0).Typed l) :
    ∃ m₂, prepend p q m' = .ok m₂ ∧ Built k j m₀ m₂ p { x with a := (y.chain kf 0).append x.a } := by
  obtain ⟨fr, g, hfr, hw0, hcq, hA⟩ := hf.holds
  rw [hy] at hw0
  replace hw0 : fr.crashThread = 0 := hw0
  rw [hw0] at hcq
  obtain ⟨hok, r, fs, fa, fb, fc, fe, h0, h1, h2, h3, h4, ha, hb, hc, he, hn, hw, hadds⟩ := h.more hA
  have hnext : fr.next = 0 := by
    obtain ⟨_, r', _, _, _, _, _, _, e1, _, _, _, _, _, _, _, e2, _⟩ := hf
    rw [e1] at hfr
    cases hfr
    exact e2
  have hperm : (p :: (fs ++ (fa ++ (fb ++ (fc ++ fe)))) ++ g).Perm (p :: (fs ++ ((g ++ fa) ++ (fb ++ (fc ++ fe))))) := by
    rw [List.cons_append, List.append_assoc]
    refine List.Perm.cons p (List.Perm.append_left fs ?_)
    rw [List.append_assoc g fa]
    exact List.perm_append_comm
  have hadds' := hadds.perm hperm
  have hnd := hadds'.nodup
  rw [List.nodup_cons] at hnd
  obtain ⟨hp, hnd⟩ := hnd
  have hd := List.nodup_append.1 hnd
  have hd2 := List.nodup_append.1 hd.2.1
  obtain ⟨m₁, e1, e2, e3⟩ := appendLoop_spec (n := (y.chain kf 0).size) (by simp [Part.chain]) (Nat.le_refl _) hcq ha hd2.1
  have hm1 : m₁ = m'.set q (some (.record { fr with next := r.a })) := by
    have : (y.chain kf 0).size = ((y.chain kf 0).size - 1) + 1 := by simp only [Part.chain, Chain.size]; omega
    rw [this, appendLoop, readRecord, hfr] at e1
    dsimp only at e1
    rw [bind_ok, hnext, if_neg (by simp), writeRecord, hfr] at e1
    cases e1
    rfl
  have hqg : q ∈ g := by
    obtain ⟨_, _, _, _, _, _, _, _, _, _, _, _, _, _, _, _, _, _, rfl⟩ := hcq
    simp
  have hqp : p ≠ q := fun e => hp (by rw [e]; simp [hqg])
  have keep : ∀ y, y ∉ g → m₁ y = m' y := e3
  have hm1p : m₁ p = some (.record r) := by rw [keep p (fun hpg => hp (by simp [hpg])), h1]
  refine ⟨m₁.set p (some (.record { r with a := q })), ?_, ?_⟩
  · simp only [prepend, readRecord, h1, hfr, bind_ok, writeRecord, ← hm1, hm1p]
  · refine Built.rebuild (fs := fs) (fa := g ++ fa) (fb := fb) (fc := fc) (fe := fe) ⟨hok.length, ?_, hok.b, hok.c, hok.e, ?_, hok.sizeB,
      hok.sizeC, hok.sizeE, ?_⟩ h0 h2 h3
      (h4.congr fun y hy => keep y fun hg => hd.2.2 y hy y (by simp [hg]) rfl) e2
      (hb.congr fun y hy => keep y fun hg => hd2.2.2 y (by simp [hg]) y (by simp [hy]) rfl)
      (hc.congr fun y hy => keep y fun hg => hd2.2.2 y (by simp [hg]) y (by simp [hy]) rfl)
      (he.congr fun y hy => keep y fun hg => hd2.2.2 y (by simp [hg]) y (by simp [hy]) rfl) hn ?_ ?_
    · have := hok.a
      unfold MemberOk at this ⊢
      rw [hslot] at this ⊢
      exact ⟨typed_append hty this.1, fun e => by rw [hs] at e; cases e⟩
    · show (Chain.append _ _).size < _
      rw [size_append]; exact hsz
    · show ∀ i, x.crash = some i → _
      rw [hx]; intro i hi; cases hi
    · show r.crashThread = x.crash.elim 0 _
      rw [hw, hx]; rfl
    · rw [hm1]
      exact hadds'.set (by simp [hqg]) _

/-! ## Frames at the end -/

/-- The structure number `i` of the list is at `q`. -/
def Ends (m : Mem) (p : Ptr) (i : Nat) (q : Ptr) : Prop := ∃ r, m p = some (.record r) ∧ nth m r.a i = q

theorem appendLoop_last {v : Chain} : ∀ {n : Nat} {m : Mem} {p q : Ptr} {f : List Ptr}, v ≠ .nil → v.size ≤ n → Holds m v true p f →
    appendLoop n p q m = link (nth m p (v.length - 1)) q m := by
  induction v with
  | nil => intro n m p q f h; exact absurd rfl h
  | cons k d ts cr a b c e next _ _ _ _ ihn =>
    intro n m p q f _ hsz hv
    rw [Chain.size] at hsz
    obtain ⟨r, g, fn, h1, h0, hpg, hg, hn, rfl⟩ := hv.split
    obtain ⟨n, rfl⟩ : ∃ n', n = n' + 1 := ⟨n - 1, by omega⟩
    rw [appendLoop, readRecord, h1]
    dsimp only
    rw [bind_ok]
    by_cases hnil : next = .nil
    · subst hnil
      obtain ⟨e1, _⟩ := hn
      rw [e1, if_neg (by simp)]
      show _ = link p q m
      rw [link, readRecord, h1]
      rfl
    · rw [if_pos (hn.ne hnil), ihn hnil (by omega) hn]
      have hl : next.length = (next.length - 1) + 1 := by
        cases next with
        | nil => exact absurd rfl hnil
        | cons => simp [Chain.length]
      have : nth m p ((Chain.cons k d ts cr a b c e next).length - 1) = nth m r.next (next.length - 1) := by
        show nth m p (next.length + 1 - 1) = _
        rw [Nat.add_sub_cancel]
        conv => lhs; rw [hl]
        rw [nth, h1]
      rw [this]

/-- A frame at the end of the list. -/
theorem attach_spec {k j j' m₀ m p x kf m' q y last} {s : Slot} {l : List Kind} (h : Built k j m₀ m p x) (hx : x.crash = none)
    (hf : Built kf j' m m' q y) (hy : y.crash = none) (hsz : (y.chain kf 0).size + x.a.size < weight j) (hslot : (slots k)[0]? = some (s, l))
    (hs : s.isList = true) (hty : (y.chain kf 0).Typed l) (hlast : x.a ≠ .nil → Ends m p (x.a.length - 1) last) :
    ∃ m₂, attach p last q m' = .ok m₂ ∧ Built k j m₀ m₂ p { x with a := x.a.append (y.chain kf 0) } ∧ Ends m₂ p x.a.length q ∧
      (x.a ≠ .nil → link last q m' = .ok m₂) := by
  obtain ⟨fr, g, hfr, hw0, hcq, hA⟩ := hf.holds
  rw [hy] at hw0
  replace hw0 : fr.crashThread = 0 := hw0
  rw [hw0] at hcq
  have hends : ∀ r, m' p = some (.record r) → x.a ≠ .nil → last = nth m' r.a (x.a.length - 1) := by
    intro r hr hnil
    obtain ⟨r0, e1, e2⟩ := hlast hnil
    rw [hA.ext p (by rw [e1]; simp), e1] at hr
    cases hr
    obtain ⟨_, r1, fs, fa, fb, fc, fe, _, h1, _, _, _, ha, _⟩ := h
    rw [e1] at h1
    cases h1
    rw [← e2]
    refine (nth_congr ha (fun y hy => hA.ext y (ha.used y hy)) ?_).1.symm
    cases hxa : x.a with
    | nil => exact absurd hxa hnil
    | cons => simp [Chain.length]
  obtain ⟨hok, r, fs, fa, fb, fc, fe, h0, h1, h2, h3, h4, ha, hb, hc, he, hn, hw, hadds⟩ := h.more hA
  have hperm : (p :: (fs ++ (fa ++ (fb ++ (fc ++ fe)))) ++ g).Perm (p :: (fs ++ ((fa ++ g) ++ (fb ++ (fc ++ fe))))) := by
    rw [List.cons_append, List.append_assoc]
    refine List.Perm.cons p (List.Perm.append_left fs ?_)
    rw [List.append_assoc fa (fb ++ (fc ++ fe)) g, List.append_assoc fa g]
    exact List.Perm.append_left fa List.perm_append_comm
  have hadds' := hadds.perm hperm
  have hnd := hadds'.nodup
  rw [List.nodup_cons] at hnd
  obtain ⟨hp, hnd⟩ := hnd
  have hd := List.nodup_append.1 hnd
  have hd2 := List.nodup_append.1 hd.2.1
  obtain ⟨a', m₁, e1, e2, e3, e4, e5⟩ := append_spec (n := x.a.size) (Nat.le_refl _) ha hcq hd2.1
  have hm1p : m₁ p = some (.record r) := by rw [e3 p (fun hpg => hp (by simp [hpg])), h1]
  have hchange : Adds m₀ m₁ (p :: (fs ++ ((fa ++ g) ++ (fb ++ (fc ++ fe))))) := by
    refine ⟨hadds'.nodup, hadds'.fresh, fun y hy => ?_, fun y hy => ?_⟩
    · by_cases hyf : y ∈ fa ++ g
      · exact e2.used y hyf
      · rw [e3 y (fun h => hyf (by simp [h]))]; exact hadds'.used y hy
    · rw [e3 y (fun h => hy (by simp [h]))]; exact hadds'.same y hy
  have hattach : attach p last q m' = .ok (m₁.set p (some (.record { r with a := a' }))) ∧
      (x.a ≠ .nil → link last q m' = .ok (m₁.set p (some (.record { r with a := a' })))) := by
    by_cases hnil : x.a = .nil
    · rw [hnil] at ha
      obtain ⟨hra, rfl⟩ := ha
      rw [append, hra, if_pos rfl] at e1
      cases e1
      exact ⟨by simp only [attach, readRecord, h1, bind_ok, hra, if_true, writeRecord], fun h => absurd hnil h⟩
    · have hra := ha.ne hnil
      rw [append, if_neg hra, appendLoop_last hnil (Nat.le_refl _) ha, ← hends r h1 hnil] at e1
      have e6 : link last q m' = .ok m₁ ∧ r.a = a' := by
        cases hl : link last q m' with
        | ok m3 => rw [hl] at e1; cases e1; exact ⟨rfl, rfl⟩
        | abort => rw [hl] at e1; cases e1
        | ub => rw [hl] at e1; cases e1
      obtain ⟨e6, rfl⟩ := e6
      rw [set_same (c := some (.record { r with a := r.a })) hm1p]
      exact ⟨by simp only [attach, readRecord, h1, bind_ok, if_neg hra, e6], fun _ => e6⟩
  have keepfa : ∀ y, y ∉ fa → m₁ y = m' y := e3
  refine ⟨m₁.set p (some (.record { r with a := a' })), hattach.1, ?_, ⟨_, set_eq _ _ _, ?_⟩, hattach.2⟩
  · refine Built.rebuild (fs := fs) (fa := fa ++ g) (fb := fb) (fc := fc) (fe := fe) ⟨hok.length, ?_, hok.b, hok.c, hok.e, ?_, hok.sizeB,
      hok.sizeC, hok.sizeE, ?_⟩ h0 h2 h3
      (h4.congr fun y hy => keepfa y fun hg => hd.2.2 y hy y (by simp [hg]) rfl) e2
      (hb.congr fun y hy => keepfa y fun hg => hd2.2.2 y (by simp [hg]) y (by simp [hy]) rfl)
      (hc.congr fun y hy => keepfa y fun hg => hd2.2.2 y (by simp [hg]) y (by simp [hy]) rfl)
      (he.congr fun y hy => keepfa y fun hg => hd2.2.2 y (by simp [hg]) y (by simp [hy]) rfl) hn ?_ hchange
    · have := hok.a
      unfold MemberOk at this ⊢
      rw [hslot] at this ⊢
      exact ⟨typed_append this.1 hty, fun e => by rw [hs] at e; cases e⟩
    · show (Chain.append _ _).size < _
      rw [size_append]; omega
    · show ∀ i, x.crash = some i → _
      rw [hx]; intro i hi; cases hi
    · show r.crashThread = x.crash.elim 0 _
      rw [hw, hx]; rfl
  · show nth _ a' x.a.length = q
    rw [← e5 (by simp [Part.chain])]
    refine (nth_congr e2 (fun y hy => set_ne _ _ fun e => hp ?_) (by rw [length_append]; simp [Part.chain, Chain.length])).1
    rw [← e]
    simp only [List.mem_append] at hy ⊢
    tauto

/-- No frame at the end. -/
theorem link_null {k j m₀ m p x last} (h : Built k j m₀ m p x) (hnil : x.a ≠ .nil) (hlast : Ends m p (x.a.length - 1) last) :
    link last 0 m = .ok m := by
  obtain ⟨hok, r, fs, fa, fb, fc, fe, h0, h1, h2, h3, h4, ha, hb, hc, he, hn, hw, hadds⟩ := h
  obtain ⟨r', e1, e2⟩ := hlast
  rw [h1] at e1
  cases e1
  rw [← e2, ← appendLoop_last (n := x.a.size) hnil (Nat.le_refl _) ha]
  clear hok hb hc he h4 hw hadds h1 h2 h3 e2
  revert hnil ha
  generalize r.a = q
  generalize x.a = v
  suffices ∀ {n : Nat} {q : Ptr} {fa : List Ptr}, v.size ≤ n → v ≠ .nil → Holds m v true q fa → appendLoop n q 0 m = .ok m from
    fun h1 h2 => this (Nat.le_refl _) h1 h2
  induction v with
  | nil => intro n q fa _ h; exact absurd rfl h
  | cons k d ts cr a b c e next _ _ _ _ ihn =>
    intro n q fa hsz _ hv
    rw [Chain.size] at hsz
    obtain ⟨r, g, fn, h1, h0, hpg, hg, hn, rfl⟩ := hv.split
    obtain ⟨n, rfl⟩ : ∃ n', n = n' + 1 := ⟨n - 1, by omega⟩
    rw [appendLoop, readRecord, h1]
    dsimp only
    rw [bind_ok]
    by_cases hnil : next = .nil
    · subst hnil
      obtain ⟨e1, _⟩ := hn
      rw [e1, if_neg (by simp), writeRecord, h1]
      dsimp only
      rw [set_same]
      rw [h1, ← e1]
    · rw [if_pos (hn.ne hnil), ihn (by omega) hnil hn]

end Satyr.Heap
