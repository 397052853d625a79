import Verif.Heap.KoopsTextModel
import Verif.Heap.TextJs
/-!
# Reading kernel oopses from text: memory of frames
-/
namespace Satyr.Heap
open Satyr.CStr
open Satyr.Text
open Satyr.Frames
open Satyr.Json (Value)

/-! ## Members -/

/-- A member that may be NULL. -/
def Part.may (x : Part) (k : Kind) (t : Text) (o : Option Str) : Part := { x with texts := x.texts.set ((Heap.texts k).idxOf t) o }

theorem may_none {x : Part} {k : Kind} {t : Text} (ht : x.texts[(texts k).idxOf t]? = some none) : x.may k t none = x := by
  have : x.texts.set ((texts k).idxOf t) none = x.texts := by
    apply List.ext_getElem? fun i => ?_
    rw [List.getElem?_set]
    split
    · rename_i e
      subst e
      rw [ht]
      split
      · rfl
      · rename_i hl
        rw [List.getElem?_eq_none (by omega)] at ht
        cases ht
    · rfl
  unfold Part.may
  rw [this]

/-- A text that is no longer there. -/
theorem Texts.drop {m : Mem} {ss ps f} (h : Texts m ss ps f) : ∀ {i : Nat} {s : Str}, ss[i]? = Option.some (Option.some s) →
    ps.getD i 0 ≠ 0 ∧ m (ps.getD i 0) = Option.some (.text s) ∧ ∃ f₀, f.Perm (ps.getD i 0 :: f₀) ∧
      ∀ m' : Mem, (∀ y ∈ f₀, m' y = m y) → Texts m' (ss.set i Option.none) (ps.set i 0) f₀ := by
  induction h with
  | nil => intro i s hi; simp at hi
  | @null ss ps f h ih =>
    intro i s hi
    cases i with
    | zero => simp at hi
    | succ i =>
      obtain ⟨h1, h2, f₀, h3, h4⟩ := ih (by simpa using hi)
      exact ⟨by simpa using h1, by simpa using h2, f₀, by simpa using h3, fun m' hk => .null (h4 m' hk)⟩
  | @some s' p ss ps f h0 h1 h ih =>
    intro i s hi
    cases i with
    | zero =>
      have hs : s' = s := by simpa using hi
      subst hs
      exact ⟨by simpa using h0, by simpa using h1, f, by simp, fun m' hk => .null (h.congr hk)⟩
    | succ i =>
      obtain ⟨h2, h3, f₀, h4, h5⟩ := ih (by simpa using hi)
      refine ⟨by simpa using h2, by simpa using h3, p :: f₀, ?_, fun m' hk => ?_⟩
      · simpa using (h4.cons p).trans (.swap _ _ _)
      · exact .some h0 (by rw [hk p (by simp), h1]) (h5 m' fun y hy => hk y (by simp [hy]))

theorem Texts.zero {m : Mem} {ss ps f} (h : Texts m ss ps f) : ∀ {i : Nat}, ss[i]? = Option.some Option.none → ps.getD i 0 = 0 := by
  induction h with
  | nil => intro i hi; simp at hi
  | @null ss ps f h ih =>
    intro i hi
    cases i with
    | zero => rfl
    | succ i => simpa using ih (by simpa using hi)
  | @some s' p ss ps f h0 h1 h ih =>
    intro i hi
    cases i with
    | zero => simp at hi
    | succ i => simpa using ih (by simpa using hi)

theorem dropText_spec {k j m₀ m p x} (h : Built k j m₀ m p x) (t : Text) (old : Str) (err : Option Ptr)
    (ht : x.texts[(texts k).idxOf t]? = some (some old)) :
    ∃ m', dropText p k t ⟨m, err⟩ = .ok ⟨m', err⟩ ∧ Built k j m₀ m' p (x.may k t none) := by
  unfold dropText
  obtain ⟨hok, r, fs, fa, fb, fc, fe, h0, h1, h2, h3, h4, ha, hb, hc, he, hn, hw, hadds⟩ := h
  obtain ⟨i1, i2, f₀, i3, i4⟩ := h4.drop ht
  simp only [bind_ok, readRecord, h1]
  generalize hold : r.texts.getD ((texts k).idxOf t) 0 = o at *
  have hmo : m o ≠ none := by rw [i2]; simp
  rw [freeBlock_spec i1 hmo]
  have hall : (p :: (fs ++ (fa ++ (fb ++ (fc ++ fe))))).Perm (o :: (p :: (f₀ ++ (fa ++ (fb ++ (fc ++ fe)))))) := by
    have e2 : (fs ++ (fa ++ (fb ++ (fc ++ fe)))).Perm (o :: (f₀ ++ (fa ++ (fb ++ (fc ++ fe))))) := i3.append_right _
    exact (e2.cons p).trans (.swap _ _ _)
  have hR := adds_remove (hadds.perm hall)
  have hno := (List.nodup_cons.1 (hadds.perm hall).nodup).1
  have keep : ∀ y ∈ p :: (f₀ ++ (fa ++ (fb ++ (fc ++ fe)))), erase m [o] y = m y :=
    fun y hy => if_neg (by simpa using fun e : y = o => hno (e ▸ hy))
  have t1 := i4 (erase m [o]) (fun y hy => keep y (by simp [hy]))
  refine ⟨(erase m [o]).set p (some (.record { r with texts := r.texts.set ((texts k).idxOf t) 0 })), ?_, ?_⟩
  · simp only [bind_ok, writeRecord, keep p (by simp), h1]
  · refine Built.rebuild (x := x.may k t none) ⟨by simp [Part.may, hok.length], hok.a, hok.b, hok.c, hok.e, hok.sizeA,
      hok.sizeB, hok.sizeC, hok.sizeE, hok.crash⟩ h0 h2 h3 t1
      (ha.congr fun y hy => keep y (by simp [hy])) (hb.congr fun y hy => keep y (by simp [hy])) (hc.congr fun y hy => keep y (by simp [hy]))
      (he.congr fun y hy => keep y (by simp [hy])) hn ?_ hR
    show r.crashThread = x.crash.elim 0 _
    rw [hw]
    cases hcr : x.crash with
    | none => rfl
    | some i => exact (nth_congr ha (fun y hy => keep y (by simp [hy])) (hok.crash i hcr).1).1.symm

theorem may_may (x : Part) (k : Kind) (t : Text) (o o' : Option Str) : (x.may k t o).may k t o' = x.may k t o' := by
  simp [Part.may]

theorem may_text {x : Part} {k : Kind} {t : Text} {o' : Option Str} (ht : x.texts[(texts k).idxOf t]? = some o') (o : Option Str) :
    (x.may k t o).texts[(texts k).idxOf t]? = some o := by
  have := (List.getElem?_eq_some_iff.1 ht).1
  simp [Part.may, this]

theorem may_other {x : Part} {k : Kind} {t t' : Text} (h : (texts k).idxOf t ≠ (texts k).idxOf t') (o : Option Str) :
    (x.may k t o).texts[(texts k).idxOf t']? = x.texts[(texts k).idxOf t']? := by
  simp [Part.may, h]

/-! ## Functions and modules -/

theorem koopsModule_spec (A : Allocator) {j m₀ m p x} (h : Built .koopsFrame j m₀ m p x) (t : Text) {inp v}
    (ht : x.texts[(texts .koopsFrame).idxOf t]? = some none) (hv : Koops.parseModuleName inp = .ok v) :
    koopsModule A p t inp ⟨m, none⟩ = .abort ∨
    ∃ m', koopsModule A p t inp ⟨m, none⟩ = .ok (v.map (·.2), ⟨m', none⟩) ∧
      Built .koopsFrame j m₀ m' p (x.may .koopsFrame t (v.map (·.1))) := by
  unfold koopsModule
  unfold Koops.parseModuleName at hv
  obtain ⟨⟨ok, u⟩, h1, h2⟩ := bind_ok_iff.1 hv
  clear hv
  rw [h1, bind_ok]
  dsimp only at h2 ⊢
  cases ok with
  | false =>
    cases h2
    exact .inr ⟨m, rfl, by rw [Option.map_none, may_none ht]; exact h⟩
  | true =>
    rw [if_neg (by simp)] at h2 ⊢
    obtain ⟨⟨o, u'⟩, h3, h4⟩ := bind_ok_iff.1 h2
    clear h2
    rcases parseMember_spec A h t u c!" \t\n]" none ht h3 with e | hm
    · rw [e]; exact .inl rfl
    cases o with
    | none =>
      cases h4
      dsimp only at hm
      rw [hm, bind_ok]
      exact .inr ⟨m, rfl, by rw [Option.map_none, may_none ht]; exact h⟩
    | some name =>
      obtain ⟨m', e, hb⟩ := hm
      rw [e, bind_ok]
      dsimp only at h4 ⊢
      rw [if_neg (by simp)]
      obtain ⟨⟨ok, w⟩, h5, h6⟩ := bind_ok_iff.1 h4
      cases h6
      rw [h5, bind_ok]
      dsimp only
      cases ok with
      | true => exact .inr ⟨m', rfl, hb⟩
      | false =>
        obtain ⟨m'', e, hb'⟩ := dropText_spec (x := x.may .koopsFrame t (some name)) hb t name none (may_text ht _)
        rw [if_pos rfl, e, bind_ok]
        rw [may_may] at hb'
        exact .inr ⟨m'', rfl, hb'⟩

theorem koopsTail_spec (A : Allocator) {j m₀ m p x} (h : Built .koopsFrame j m₀ m p x) (tf tm : Text) {name par inp v}
    (hne : (texts .koopsFrame).idxOf tf ≠ (texts .koopsFrame).idxOf tm)
    (hf : x.texts[(texts .koopsFrame).idxOf tf]? = some (some name)) (hm : x.texts[(texts .koopsFrame).idxOf tm]? = some none)
    (hv : Koops.functionTail name par inp = .ok v) :
    Fills .koopsFrame j m₀ p none (quiet (v.map fun r => (((r.1.offset, r.1.length), r.2), x.may .koopsFrame tm r.1.module)))
      (koopsTail A p tf tm par inp ⟨m, none⟩) ∧ ∀ r, v = some r → r.1.name = some name := by
  unfold koopsTail
  unfold Koops.functionTail at hv
  obtain ⟨⟨ok, u⟩, h1, h2⟩ := bind_ok_iff.1 hv
  clear hv
  rw [h1, bind_ok]
  dsimp only at h2 ⊢
  cases ok with
  | false =>
    cases h2
    exact ⟨quiet_fail h, by simp⟩
  | true =>
    rw [if_neg (by simp)] at h2 ⊢
    obtain ⟨⟨_, off, u1⟩, h3, h4⟩ := bind_ok_iff.1 h2
    clear h2
    rw [h3, bind_ok]
    dsimp only at h4 ⊢
    obtain ⟨⟨ok, u2⟩, h5, h6⟩ := bind_ok_iff.1 h4
    clear h4
    rw [h5, bind_ok]
    dsimp only at h6 ⊢
    cases ok with
    | false =>
      cases h6
      obtain ⟨m', e, hb⟩ := dropText_spec h tf name none hf
      rw [if_pos rfl, e, bind_ok]
      exact ⟨quiet_fail hb, by simp⟩
    | true =>
      rw [if_neg (by simp)] at h6 ⊢
      obtain ⟨⟨_, len, u3⟩, h7, h8⟩ := bind_ok_iff.1 h6
      clear h6
      rw [h7, bind_ok]
      dsimp only at h8 ⊢
      obtain ⟨u4, h9, h10⟩ := bind_ok_iff.1 h8
      clear h8
      rw [h9, bind_ok]
      obtain ⟨⟨om, u5⟩, h11, h12⟩ := bind_ok_iff.1 h10
      clear h10
      dsimp only at h12
      unfold Koops.optModule at h11
      obtain ⟨vm, h13, h14⟩ := bind_ok_iff.1 h11
      clear h11
      have hom : om = vm.map (·.1) ∧ u5 = (vm.map (·.2)).getD u4 := by
        cases vm with
        | none => cases h14; exact ⟨rfl, rfl⟩
        | some r => cases h14; exact ⟨rfl, rfl⟩
      obtain ⟨rfl, rfl⟩ := hom
      clear h14
      obtain ⟨u6, h15, h16⟩ := bind_ok_iff.1 h12
      clear h12
      obtain ⟨⟨ok, u7⟩, h17, h18⟩ := bind_ok_iff.1 h16
      clear h16
      cases h18
      rcases koopsModule_spec A h tm hm h13 with e | ⟨m', e, hb⟩
      · rw [e]; exact ⟨.inl rfl, by cases ok <;> simp⟩
      rw [e, bind_ok]
      dsimp only
      rw [h15, bind_ok, h17, bind_ok]
      dsimp only
      cases ok with
      | true => exact ⟨.inr ⟨m', rfl, hb⟩, by simp⟩
      | false =>
        refine ⟨?_, by simp⟩
        simp only [Bool.false_eq_true, if_false]
        obtain ⟨m'', e, hb'⟩ := dropText_spec hb tf name none (by rw [may_other hne.symm]; exact hf)
        rw [e, bind_ok]
        cases vm with
        | none => exact quiet_fail hb'
        | some r =>
          obtain ⟨m₃, e, hb₃⟩ := dropText_spec hb' tm r.1 none (by rw [may_other hne]; exact may_text hm _)
          rw [if_pos (by simp), e, bind_ok]
          exact quiet_fail hb₃

theorem koopsFunction_spec (A : Allocator) {j m₀ m p x} (h : Built .koopsFrame j m₀ m p x) (tf tm : Text) {inp v}
    (hne : (texts .koopsFrame).idxOf tf ≠ (texts .koopsFrame).idxOf tm)
    (hf : x.texts[(texts .koopsFrame).idxOf tf]? = some none) (hm : x.texts[(texts .koopsFrame).idxOf tm]? = some none)
    (hv : Koops.parseFunction inp = .ok v) :
    Fills .koopsFrame j m₀ p none
      (quiet (v.map fun r => (((r.1.offset, r.1.length), r.2), (x.may .koopsFrame tf r.1.name).may .koopsFrame tm r.1.module)))
      (koopsFunction A p tf tm inp ⟨m, none⟩) := by
  unfold koopsFunction
  unfold Koops.parseFunction at hv
  obtain ⟨⟨par, u⟩, h1, h2⟩ := bind_ok_iff.1 hv
  clear hv
  rw [h1, bind_ok]
  dsimp only at h2 ⊢
  obtain ⟨⟨n, _, u1⟩, h3, h4⟩ := bind_ok_iff.1 h2
  clear h2
  rw [h3, bind_ok]
  dsimp only at h4 ⊢
  by_cases hn : n ≠ 0
  · rw [if_pos hn] at h4 ⊢
    obtain ⟨⟨ok, u2⟩, h5, h6⟩ := bind_ok_iff.1 h4
    cases h6
    rw [h5, bind_ok]
    cases ok with
    | false => exact quiet_fail h
    | true =>
      refine .inr ⟨m, rfl, ?_⟩
      dsimp only
      rw [may_none hf, may_none hm]
      exact h
  · rw [if_neg hn] at h4 ⊢
    obtain ⟨⟨o, u2⟩, h5, h6⟩ := bind_ok_iff.1 h4
    clear h4
    dsimp only at h6
    rcases parseMember_spec A h tf u c!" \t\n)+<" none hf h5 with e | hmm
    · rw [e]; exact .inl rfl
    cases o with
    | none =>
      cases h6
      dsimp only at hmm
      rw [hmm, bind_ok]
      exact quiet_fail h
    | some name =>
      obtain ⟨m', e, hb⟩ := hmm
      rw [e, bind_ok]
      dsimp only at h6 ⊢
      rw [if_neg (by simp)]
      obtain ⟨hF, hN⟩ := koopsTail_spec A (x := x.may .koopsFrame tf (some name)) hb tf tm hne (may_text hf _) (by rw [may_other hne]; exact hm) h6
      cases v with
      | none => exact hF
      | some r =>
        have := hN r rfl
        simp only [Option.map_some, this] at hF ⊢
        exact hF

end Satyr.Heap
