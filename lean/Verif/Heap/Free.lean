import Verif.Heap.Copy
/-!
# Freeing structures

C99: freeing releases exactly the memory that the structure and its members occupy.
-/
namespace Satyr.Heap
open Satyr.CStr

/-! ## Specification -/

/-- Memory `m'` is memory `m` without the blocks at the addresses `f`. -/
structure Released (m m' : Mem) (f : List Ptr) : Prop where
  gone : ∀ x ∈ f, m' x = none
  same : ∀ x, x ∉ f → m' x = m x

/-- Reports in the list have the name and version of the reporter as constants of the program (or not at all). -/
def Chain.ConstantReporter : Chain → Prop
  | .nil => True
  | .cons k _ ts _ _ _ _ _ next => (k = .report → ts[1]? = some none ∧ ts[2]? = some none) ∧ next.ConstantReporter

/-! ## Lemmas -/

/-- Memory without some blocks. -/
def erase (m : Mem) (f : List Ptr) : Mem := fun x => if x ∈ f then none else m x

theorem erase_released (m : Mem) (f : List Ptr) : Released m (erase m f) f :=
  ⟨fun _ hx => if_pos hx, fun _ hx => if_neg hx⟩

theorem erase_nil (m : Mem) : erase m [] = m := by
  funext x; simp [erase]

theorem erase_erase (m : Mem) (f g : List Ptr) : erase (erase m f) g = erase m (f ++ g) := by
  funext x
  simp only [erase, List.mem_append]
  by_cases h : x ∈ g <;> by_cases h' : x ∈ f <;> simp [h, h']

theorem erase_congr (m : Mem) {f g : List Ptr} (h : ∀ x, x ∈ f ↔ x ∈ g) : erase m f = erase m g := by
  funext x; simp only [erase, h]

theorem erase_apart (m : Mem) {f g : List Ptr} (h : ∀ x ∈ g, x ∉ f) : ∀ x ∈ g, erase m f x = m x :=
  fun x hx => if_neg (h x hx)

theorem freeBlock_spec {m : Mem} {p : Ptr} (h0 : p ≠ 0) (h : m p ≠ none) : freeBlock m p = .ok (erase m [p]) := by
  unfold freeBlock
  rw [if_neg h0]
  cases hm : m p with
  | none => exact absurd hm h
  | some c =>
    dsimp only
    congr 1
    funext x
    simp [erase, Mem.set]

theorem freeTexts_spec (which : List Text) {ss ps f} {m₀ : Mem} (h : Texts m₀ ss ps f) :
    ∀ (ts : List Text) (m : Mem), f.Nodup → List.Forall₂ (fun t s => t ∈ which ∨ s = none) ts ss → (∀ x ∈ f, m x = m₀ x) →
      freeTexts which ts ps m = .ok (erase m f) := by
  induction h with
  | nil =>
    intro ts m _ hl _
    cases hl
    rw [erase_nil]; rfl
  | null h ih =>
    intro ts m hf hl hm
    obtain ⟨t, ts, h1, h2, rfl⟩ := List.forall₂_cons_right_iff.1 hl
    have : (if t ∈ which then freeBlock m 0 else .ok m) = .ok m := by split <;> rfl
    rw [freeTexts, this]
    simp only [bind_ok]
    exact ih ts m hf h2 hm
  | @some s p ss ps f h0 h1 h ih =>
    intro ts m hf hl hm
    obtain ⟨t, ts, h2, h3, rfl⟩ := List.forall₂_cons_right_iff.1 hl
    obtain ⟨hf1, hf2⟩ := List.nodup_cons.1 hf
    have hw : t ∈ which := by simpa using h2
    rw [freeTexts, if_pos hw, freeBlock_spec h0 (by rw [hm p (by simp), h1]; simp)]
    simp only [bind_ok]
    rw [ih ts _ hf2 h3 ?_, erase_erase]
    · rfl
    · intro x hx
      rw [erase_apart m (g := f) _ x hx, hm x (by simp [hx])]
      intro y hy hyp
      rw [List.mem_singleton] at hyp
      exact hf1 (hyp ▸ hy)

theorem freed_slots (k : Kind) : ∀ x ∈ slots k, x.1 ∈ freedSlots k ∧ .report ∉ x.2 := by
  cases k <;> decide

theorem freed_texts (k : Kind) (h : k ≠ .report) : ∀ t ∈ texts k, t ∈ freedTexts k := by
  cases k <;> first | exact absurd rfl h | decide

theorem Chain.constantReporter {v : Chain} : ∀ {ks}, v.Typed ks → .report ∉ ks → v.ConstantReporter := by
  induction v with
  | nil => exact fun _ _ => trivial
  | cons k d ts w a b c e next _ _ _ _ ihn =>
    rintro ks ⟨hk, _, hn, _⟩ hr
    exact ⟨fun h => absurd (h ▸ hk) hr, ihn hn hr⟩

theorem forall₂_of_length {α β : Type} {R : α → β → Prop} : ∀ {l : List α} {l' : List β}, l'.length = l.length → (∀ x ∈ l, ∀ y, R x y) →
    List.Forall₂ R l l'
  | [], [], _, _ => .nil
  | x :: l, y :: l', h, hr => .cons (hr x (by simp) y) (forall₂_of_length (by simpa using h) fun x hx => hr x (by simp [hx]))
  | [], _ :: _, h, _ => by simp at h
  | _ :: _, [], h, _ => by simp at h

theorem freed_forall (k : Kind) (ts : List (Option Str)) (hl : ts.length = (texts k).length)
    (hr : k = .report → ts[1]? = some none ∧ ts[2]? = some none) :
    List.Forall₂ (fun t s => t ∈ freedTexts k ∨ s = none) (texts k) ts := by
  by_cases h : k = .report
  · subst h
    obtain ⟨h1, h2⟩ := hr rfl
    match ts, hl, h1, h2 with
    | [x, y, z], _, h1, h2 =>
      simp only [List.getElem?_cons_succ, List.getElem?_cons_zero, Option.some.injEq] at h1 h2
      subst h1; subst h2
      exact .cons (.inl (by decide)) (.cons (.inr rfl) (.cons (.inr rfl) .nil))
  · exact forall₂_of_length hl fun t ht _ => .inl (freed_texts k h t ht)

theorem freeSlot_spec {n : Nat} {k : Kind} (i : Nat) {x : Chain} {p : Ptr} {f : List Ptr}
    {m : Mem} (hx : Holds m x true p f) (hf : f.Nodup) (ht : MemberOk k i x x.Typed)
    (ih : ∀ s p f m ks, x.Typed ks → x.ConstantReporter → Holds m x s p f → f.Nodup → free n p s m = .ok (erase m f)) :
    freeSlot (free n) k i p m = .ok (erase m f) := by
  unfold freeSlot
  unfold MemberOk at ht
  cases hs : (slots k)[i]? with
  | none =>
    rw [hs] at ht
    dsimp only at ht ⊢
    subst ht
    obtain ⟨rfl, rfl⟩ := hx
    rw [erase_nil]
  | some y =>
    obtain ⟨s, l⟩ := y
    rw [hs] at ht
    dsimp only at ht ⊢
    obtain ⟨hc1, hc2⟩ := freed_slots k (s, l) (List.mem_of_getElem? hs)
    rw [if_pos hc1]
    have hc := Chain.constantReporter ht.1 hc2
    cases hl : s.isList with
    | true => exact ih true p f m l ht.1 hc hx hf
    | false => exact ih false p f m l ht.1 hc (hx.alone (ht.2 hl)) hf

theorem mem_order1 (p : Ptr) (fs fa fb fc fe : List Ptr) (x : Ptr) :
    x ∈ fs ++ fa ++ fb ++ fc ++ fe ++ [p] ↔ x ∈ p :: (fs ++ (fa ++ (fb ++ (fc ++ (fe ++ []))))) := by
  refine List.Perm.mem_iff ?_
  simp only [List.append_assoc, List.append_nil]
  simp only [← List.append_assoc]
  exact List.perm_append_singleton _ _

theorem mem_order2 (p : Ptr) (fs fa fb fc fe fn : List Ptr) (x : Ptr) :
    x ∈ fs ++ fa ++ fb ++ fc ++ fe ++ [p] ++ fn ↔ x ∈ p :: (fs ++ (fa ++ (fb ++ (fc ++ (fe ++ fn))))) := by
  rw [List.mem_append, mem_order1]
  simp only [List.mem_cons, List.mem_append, List.append_nil, or_assoc]

theorem free_spec (v : Chain) : ∀ (n : Nat) (s : Bool) (p : Ptr) (f : List Ptr) (m : Mem) (ks : List Kind),
    v.size < n → v.Typed ks → v.ConstantReporter → Holds m v s p f → f.Nodup → free n p s m = .ok (erase m f) := by
  induction v with
  | nil =>
    rintro n s p f m ks hn _ _ ⟨rfl, rfl⟩ _
    cases n with
    | zero => omega
    | succ n => rw [free, if_pos rfl, erase_nil]
  | cons k d ts w a b c e next iha ihb ihc ihe ihn =>
    intro n s p f m ks hsize ht hr hv hf
    obtain ⟨hk, hlen, htn, hta, htb, htc, hte⟩ := ht
    obtain ⟨hr1, hr2⟩ := hr
    rw [Chain.size] at hsize
    cases n with
    | zero => omega
    | succ n =>
      obtain ⟨r, fs, fa, fb, fc, fe, fn, h0, h1, rfl, rfl, rfl, h5, ha, hb, hc, he, hn, rfl⟩ := hv
      obtain ⟨p0, hf⟩ := List.nodup_cons.1 hf
      obtain ⟨ds, hf, as⟩ := List.nodup_append.1 hf
      obtain ⟨da, hf, aa⟩ := List.nodup_append.1 hf
      obtain ⟨db, hf, ab⟩ := List.nodup_append.1 hf
      obtain ⟨dc, hf, ac⟩ := List.nodup_append.1 hf
      obtain ⟨de, dn, ae⟩ := List.nodup_append.1 hf
      simp only [List.mem_append, not_or] at p0
      obtain ⟨ps, pa, pb, pc, pe, pn⟩ := p0
      rw [free, if_neg h0, readRecord, h1]
      simp only [bind_ok]
      rw [freeTexts_spec (freedTexts r.kind) h5 (texts r.kind) m ds (freed_forall _ _ hlen hr1) fun _ _ => rfl]
      simp only [bind_ok]
      rw [freeSlot_spec 0 (m := erase m fs) (ha.congr (erase_apart m fun x hx hy => as x hy x (by simp [hx]) rfl)) da hta
        fun s p f m ks h1 h2 h3 h4 => iha n s p f m ks (by omega) h1 h2 h3 h4]
      simp only [bind_ok, erase_erase]
      rw [freeSlot_spec 1 (m := erase m (fs ++ fa)) (hb.congr (erase_apart m fun x hx hy => ?_)) db htb
        fun s p f m ks h1 h2 h3 h4 => ihb n s p f m ks (by omega) h1 h2 h3 h4]
      · simp only [bind_ok, erase_erase]
        rw [freeSlot_spec 2 (m := erase m (fs ++ fa ++ fb)) (hc.congr (erase_apart m fun x hx hy => ?_)) dc htc
          fun s p f m ks h1 h2 h3 h4 => ihc n s p f m ks (by omega) h1 h2 h3 h4]
        · simp only [bind_ok, erase_erase]
          rw [freeSlot_spec 3 (m := erase m (fs ++ fa ++ fb ++ fc)) (he.congr (erase_apart m fun x hx hy => ?_)) de hte
            fun s p f m ks h1 h2 h3 h4 => ihe n s p f m ks (by omega) h1 h2 h3 h4]
          · simp only [bind_ok, erase_erase]
            rw [freeBlock_spec h0 (by rw [erase, if_neg (by simp [ps, pa, pb, pc, pe]), h1]; simp)]
            simp only [bind_ok, erase_erase]
            cases s with
            | false =>
              rw [if_neg (by simp), hn.2]
              congr 1
              exact erase_congr m (mem_order1 p fs fa fb fc fe)
            | true =>
              rw [if_pos rfl] at hn ⊢
              rw [ihn n true _ _ _ ks (by omega) htn hr2 (hn.congr (erase_apart m fun x hx hy => ?_)) dn]
              · rw [erase_erase]
                congr 1
                exact erase_congr m (mem_order2 p fs fa fb fc fe fn)
              · simp only [List.mem_append, List.mem_cons, List.not_mem_nil, or_false] at hy
                rcases hy with ((((hy | hy) | hy) | hy) | hy) | hy
                · exact as x hy x (by simp [hx]) rfl
                · exact aa x hy x (by simp [hx]) rfl
                · exact ab x hy x (by simp [hx]) rfl
                · exact ac x hy x (by simp [hx]) rfl
                · exact ae x hy x (by simp [hx]) rfl
                · exact pn (hy ▸ hx)
          · simp only [List.mem_append] at hy
            rcases hy with ((hy | hy) | hy) | hy
            · exact as x hy x (by simp [hx]) rfl
            · exact aa x hy x (by simp [hx]) rfl
            · exact ab x hy x (by simp [hx]) rfl
            · exact ac x hy x (by simp [hx]) rfl
        · simp only [List.mem_append] at hy
          rcases hy with (hy | hy) | hy
          · exact as x hy x (by simp [hx]) rfl
          · exact aa x hy x (by simp [hx]) rfl
          · exact ab x hy x (by simp [hx]) rfl
      · simp only [List.mem_append] at hy
        rcases hy with hy | hy
        · exact as x hy x (by simp [hx]) rfl
        · exact aa x hy x (by simp [hx]) rfl

end Satyr.Heap
