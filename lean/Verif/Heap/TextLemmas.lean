import Verif.Heap.TextModel
import Verif.Heap.ReportJson
/-!
# Reading stack traces from text: lemmas about memory
-/
namespace Satyr.Heap
open Satyr.CStr
open Satyr.Json

/-! ## Texts -/

/-- The text number `i`. -/
theorem Texts.item {m : Mem} {ss ps f} (h : Texts m ss ps f) : ∀ {i : Nat} {s : Str}, ss[i]? = Option.some (Option.some s) →
    ps.getD i 0 ≠ 0 ∧ m (ps.getD i 0) = Option.some (.text s) ∧ ∃ f₀, f.Perm (ps.getD i 0 :: f₀) ∧
      ∀ (m' : Mem) (q : Ptr) (new : Str), q ≠ 0 → m' q = Option.some (.text new) → (∀ y ∈ f₀, m' y = m y) →
        ∃ f', Texts m' (ss.set i (Option.some new)) (ps.set i q) f' ∧ f'.Perm (q :: f₀) := by
  induction h with
  | nil => intro i s hi; simp at hi
  | @null ss ps f h ih =>
    intro i s hi
    cases i with
    | zero => simp at hi
    | succ i =>
      obtain ⟨h1, h2, f₀, h3, h4⟩ := ih (by simpa using hi)
      refine ⟨by simpa using h1, by simpa using h2, f₀, by simpa using h3, fun m' q new hq hm hk => ?_⟩
      obtain ⟨f', h5, h6⟩ := h4 m' q new hq hm hk
      exact ⟨f', .null h5, h6⟩
  | @some s' p ss ps f h0 h1 h ih =>
    intro i s hi
    cases i with
    | zero =>
      have hs : s' = s := by simpa using hi
      subst hs
      exact ⟨by simpa using h0, by simpa using h1, f, by simp, fun m' q new hq hm hk => ⟨q :: f, .some hq hm (h.congr hk), .refl _⟩⟩
    | succ i =>
      obtain ⟨h2, h3, f₀, h4, h5⟩ := ih (by simpa using hi)
      refine ⟨by simpa using h2, by simpa using h3, p :: f₀, ?_, fun m' q new hq hm hk => ?_⟩
      · simpa using (h4.cons p).trans (.swap _ _ _)
      · obtain ⟨f', h6, h7⟩ := h5 m' q new hq hm fun y hy => hk y (by simp [hy])
        exact ⟨p :: f', .some h0 (by rw [hk p (by simp), h1]) h6, (h7.cons p).trans (.swap _ _ _)⟩

theorem memberText_spec {k j m₀ m p x} (h : Built k j m₀ m p x) {t : Text} {str : Str}
    (ht : x.texts[(texts k).idxOf t]? = some (some str)) : memberText p k t m = .ok str := by
  obtain ⟨hok, r, fs, fa, fb, fc, fe, h0, h1, h2, h3, h4, _⟩ := h
  simp only [memberText, readRecord, h1, bind_ok, (h4.item ht).2.1]

theorem adds_remove {m₀ m : Mem} {f : List Ptr} {q : Ptr} (h : Adds m₀ m (q :: f)) : Adds m₀ (erase m [q]) f := by
  have hn := List.nodup_cons.1 h.nodup
  have keep : ∀ y, y ≠ q → erase m [q] y = m y := fun y hy => if_neg (by simpa using hy)
  refine ⟨hn.2, fun x hx => h.fresh x (by simp [hx]), fun x hx => ?_, fun x hx => ?_⟩
  · rw [keep x fun e => hn.1 (e ▸ hx)]; exact h.used x (by simp [hx])
  · by_cases e : x = q
    · subst e; rw [h.fresh x (by simp)]; exact if_pos (by simp)
    · rw [keep x e]; exact h.same x (by simp [hx, e])

theorem replaceText_spec (A : Allocator) {k j m₀ m p x} (h : Built k j m₀ m p x) (t : Text) (old new : Str) (err : Option Ptr)
    (ht : x.texts[(texts k).idxOf t]? = some (some old)) :
    replaceText A p k t new ⟨m, err⟩ = .abort ∨
    ∃ m', replaceText A p k t new ⟨m, err⟩ = .ok ⟨m', err⟩ ∧ Built k j m₀ m' p (x.put k t new) := by
  unfold replaceText
  dsimp only
  rcases alloc_spec A (.text new) m with e | ⟨q, e, hq, hA⟩
  · rw [e]; exact .inl rfl
  · rw [e]
    obtain ⟨hok, r, fs, fa, fb, fc, fe, h0, h1, h2, h3, h4, ha, hb, hc, he, hn, hw, hadds⟩ := h.more hA
    obtain ⟨i1, i2, f₀, i3, i4⟩ := h4.item ht
    simp only [bind_ok, readRecord, h1]
    generalize hold : r.texts.getD ((texts k).idxOf t) 0 = o at *
    have hmo : m.set q (some (.text new)) o ≠ none := by rw [i2]; simp
    rw [freeBlock_spec i1 hmo]
    have hall : (p :: (fs ++ (fa ++ (fb ++ (fc ++ fe)))) ++ [q]).Perm (o :: (p :: ((q :: f₀) ++ (fa ++ (fb ++ (fc ++ fe)))))) := by
      have e1 : (p :: (fs ++ (fa ++ (fb ++ (fc ++ fe)))) ++ [q]).Perm (p :: (q :: (fs ++ (fa ++ (fb ++ (fc ++ fe)))))) := by
        rw [List.cons_append]; exact List.Perm.cons p List.perm_append_comm
      refine e1.trans ?_
      have e2 : (fs ++ (fa ++ (fb ++ (fc ++ fe)))).Perm (o :: (f₀ ++ (fa ++ (fb ++ (fc ++ fe))))) := i3.append_right _
      exact (((e2.cons q).trans (.swap _ _ _)).cons p).trans (.swap _ _ _)
    have hR := adds_remove (hadds.perm hall)
    have hno := (List.nodup_cons.1 (hadds.perm hall).nodup).1
    have keep : ∀ y ∈ p :: ((q :: f₀) ++ (fa ++ (fb ++ (fc ++ fe)))), erase (m.set q (some (.text new))) [o] y = m.set q (some (.text new)) y :=
      fun y hy => if_neg (by simpa using fun e : y = o => hno (e ▸ hy))
    obtain ⟨fs', t1, t2⟩ := i4 (erase (m.set q (some (.text new))) [o]) q new hq (by rw [keep q (by simp), set_eq]) (fun y hy => keep y (by simp [hy]))
    refine .inr ⟨(erase (m.set q (some (.text new))) [o]).set p (some (.record { r with texts := r.texts.set ((texts k).idxOf t) q })), ?_, ?_⟩
    · simp only [bind_ok, writeRecord, keep p (by simp), h1]
    · refine Built.rebuild (x := x.put k t new) ⟨by simp [Part.put, hok.length], hok.a, hok.b, hok.c, hok.e, hok.sizeA,
        hok.sizeB, hok.sizeC, hok.sizeE, hok.crash⟩ h0 h2 h3 t1
        (ha.congr fun y hy => keep y (by simp [hy])) (hb.congr fun y hy => keep y (by simp [hy])) (hc.congr fun y hy => keep y (by simp [hy]))
        (he.congr fun y hy => keep y (by simp [hy])) hn ?_ (hR.perm ((t2.symm.append_right _).cons p))
      show r.crashThread = x.crash.elim 0 _
      rw [hw]
      cases hcr : x.crash with
      | none => rfl
      | some i => exact (nth_congr ha (fun y hy => keep y (by simp [hy])) (hok.crash i hcr).1).1.symm

theorem put_same {x : Part} {k : Kind} {t : Text} {str : Str} (ht : x.texts[(texts k).idxOf t]? = some (some str)) : x.put k t str = x := by
  have : x.texts.set ((texts k).idxOf t) (some str) = x.texts := by
    apply List.ext_getElem? fun i => ?_
    rw [List.getElem?_set]
    split
    · rename_i e
      subst e
      rw [ht]
      split
      · rfl
      · rename_i hl
        rw [List.getElem?_eq_none (by omega)] at ht
        cases ht
    · rfl
  unfold Part.put
  rw [this]

theorem anonymizeMember_spec (A : Allocator) {k j m₀ m p x} (h : Built k j m₀ m p x) (t : Text) (path : Str) (err : Option Ptr)
    (ht : x.texts[(texts k).idxOf t]? = some (some path)) :
    anonymizeMember A p k t ⟨m, err⟩ = .abort ∨
    ∃ m', anonymizeMember A p k t ⟨m, err⟩ = .ok ⟨m', err⟩ ∧ Built k j m₀ m' p (x.put k t (anonymizePath path)) := by
  unfold anonymizeMember anonymizePath
  rw [memberText_spec h ht, bind_ok]
  split
  · cases strchr (path.drop 6) '/' with
    | some rest => exact replaceText_spec A h t path _ err ht
    | none => exact .inr ⟨m, rfl, by rw [put_same ht]; exact h⟩
  · exact .inr ⟨m, rfl, by rw [put_same ht]; exact h⟩

theorem parseMember_spec (A : Allocator) {k j m₀ m p x} (h : Built k j m₀ m p x) (t : Text) (inp reject : Str) (err : Option Ptr)
    (ht : x.texts[(texts k).idxOf t]? = some none) {o : Option Str} {rest : Str} (hp : parseCharCspan inp reject = .ok (o, rest)) :
    parseMember A p k t inp reject ⟨m, err⟩ = .abort ∨
    match (generalizing := false) o with
    | none => parseMember A p k t inp reject ⟨m, err⟩ = .ok (false, rest, ⟨m, err⟩)
    | some str => ∃ m', parseMember A p k t inp reject ⟨m, err⟩ = .ok (true, rest, ⟨m', err⟩) ∧ Built k j m₀ m' p (x.put k t str) := by
  unfold parseMember
  rw [hp, bind_ok]
  cases o with
  | none => exact .inr rfl
  | some str =>
    dsimp only
    rcases storeText_spec A h t str err ht with e | ⟨m', e, hb⟩
    · rw [e]; exact .inl rfl
    · rw [e]; exact .inr ⟨m', rfl, hb⟩

/-- An allocator that gives one address. -/
def giving (w : Ptr) (hw : w ≠ 0) : Allocator where
  pick m := if m w = none then some w else none
  free m p h := by
    split at h
    · rename_i h'; cases h; exact ⟨h', hw⟩
    · cases h

theorem set_set (m : Mem) (p : Ptr) (c c' : Option Cell) : (m.set p c).set p c' = m.set p c' := by
  funext x
  unfold Mem.set
  split <;> rfl

theorem adoptText_spec {k j m₀ m p x w l} (h : Built k j m₀ m p x) (hw : w ≠ 0) (hfree : m w = none) (t : Text) (str : Str) (err : Option Ptr)
    (ht : x.texts[(texts k).idxOf t]? = some none) :
    ∃ m', adoptText p k t w str ⟨m.set w (some (.text l)), err⟩ = .ok ⟨m', err⟩ ∧ Built k j m₀ m' p (x.put k t str) := by
  have ha : alloc (giving w hw) (.text str) m = .ok (w, m.set w (some (.text str))) := by
    simp only [alloc, giving, hfree, if_true]
  have key : adoptText p k t w str ⟨m.set w (some (.text l)), err⟩ = storeText (giving w hw) p k t str ⟨m, err⟩ := by
    unfold adoptText storeText
    dsimp only
    rw [set_eq, ha]
    simp only [set_set, bind_ok]
  rw [key]
  rcases storeText_spec (giving w hw) h t str err ht with e | h'
  · exfalso
    unfold storeText at e
    dsimp only at e
    rw [ha, bind_ok] at e
    obtain ⟨_, r, _, _, _, _, _, _, h1, _⟩ := h
    have hne : p ≠ w := fun e => by rw [e, hfree] at h1; cases h1
    have : (m.set w (some (.text str))) p = some (.record r) := by rw [set_ne _ _ hne, h1]
    simp only [readRecord, this, bind_ok, writeRecord] at e
    cases e
  · exact h'

/-! ## Frames -/

/-- What reading members into the structure at `p` does that is to give `v`. -/
def Fills {β : Type} (k : Kind) (j : Value) (m₀ : Mem) (p : Ptr) (err : Option Ptr) (v : Str ⊕ (β × Part)) (o : Out (Option β × State)) : Prop :=
  o = .abort ∨ match v with
  | .inl msg => ∃ m x s, o = .ok (none, s) ∧ Built k j m₀ m p x ∧ Reported m err msg s
  | .inr (b, x) => ∃ m, o = .ok (some b, ⟨m, err⟩) ∧ Built k j m₀ m p x

/-- What reading a structure does that is to give `v`. -/
def Makes (k : Kind) (m : Mem) (err : Option Ptr) (v : Str ⊕ (Str × Part)) (o : Out (Ptr × Str × State)) : Prop :=
  o = .abort ∨ match v with
  | .inl msg => ∃ rest s, o = .ok (0, rest, s) ∧ Reported m err msg s
  | .inr (rest, x) => ∃ p m', o = .ok (p, rest, ⟨m', err⟩) ∧ Built k .null m m' p x

theorem failWith_spec (A : Allocator) {β : Type} {k j m₀ m p x} (h : Built k j m₀ m p x) (msg : Str) (err : Option Ptr) :
    Fills (β := β) k j m₀ p err (.inl msg) (failWith A msg ⟨m, err⟩) := by
  unfold failWith
  rcases setError_spec A msg ⟨m, err⟩ with e | ⟨s, e, hs⟩
  · rw [e]; exact .inl rfl
  · rw [e]; exact .inr ⟨m, x, s, rfl, h, hs⟩

theorem endFrame_spec {k m₀ p err v o} (hk : k ≠ .report) (h : Fills k .null m₀ p err v o) : Makes k m₀ err v (o.bind (endFrame p)) := by
  rcases h with e | h
  · rw [e]; exact .inl rfl
  · cases v with
    | inl msg =>
      obtain ⟨m, x, s, e, hb, hs⟩ := h
      rw [e, bind_ok, endFrame]
      obtain ⟨m', e', hr⟩ := hb.free (fun h => absurd h hk) hs false (n := 16) (Nat.le_refl _)
      rw [e', bind_ok]
      exact .inr ⟨[], _, rfl, hr⟩
    | inr v =>
      obtain ⟨m, e, hb⟩ := h
      rw [e, bind_ok, endFrame]
      exact .inr ⟨p, m, rfl, hb⟩

theorem new_spec (A : Allocator) (k : Kind) (j : Value) (m : Mem) : alloc A (newRecord k) m = .abort ∨
    ∃ p m', alloc A (newRecord k) m = .ok (p, m') ∧ Built k j m m' p { texts := List.replicate (texts k).length none } := by
  rcases alloc_spec A (newRecord k) m with e | ⟨p, e, hp, hA⟩
  · exact .inl e
  · exact .inr ⟨p, _, e, built_new j hp hA⟩

theorem Built.ext {k j m₀ m p x} (h : Built k j m₀ m p x) : Ext m₀ m := by
  obtain ⟨_, _, _, _, _, _, _, _, _, _, _, _, _, _, _, _, _, _, hadds⟩ := h
  exact hadds.ext

theorem Built.ne {k j m₀ m p x} (h : Built k j m₀ m p x) : p ≠ 0 := by
  obtain ⟨_, _, _, _, _, _, _, h0, _⟩ := h
  exact h0

end Satyr.Heap
