import Verif.Heap.GdbTextModel
import Verif.Heap.TextLists
import Verif.Heap.JavaTextLemmas
import Verif.CStr.Exact
/-!
# Reading gdb stack traces from text: growing texts and names of functions
-/
namespace Satyr.Heap
open Satyr.CStr

/-- Memory `m'` is memory `m` with the text `t` at `p` in addition. -/
def Holding (m : Mem) (p : Ptr) (t : Str) (m' : Mem) : Prop := p ≠ 0 ∧ m p = none ∧ m' = m.set p (some (.text t))

/-- What a function does that appends to a text. -/
def Writes (m : Mem) (acc : Str) (v : Str × Str) (o : Out (Ptr × Str × Mem)) : Prop :=
  o = .abort ∨ ∃ q m', o = .ok (q, v.2, m') ∧ Holding m q (acc ++ v.1) m'

/-- What a function does that reads a text. -/
def MakesText (m : Mem) (v : Option (Str × Str)) (o : Out (Ptr × Str × Mem)) : Prop :=
  o = .abort ∨ match v with
  | none => ∃ t, o = .ok (0, t, m)
  | some (x, t) => ∃ p m', o = .ok (p, t, m') ∧ Holding m p x m'

theorem set_swap (m : Mem) {p q : Ptr} (c d : Option Cell) (h : p ≠ q) : (m.set p c).set q d = (m.set q d).set p c := by
  funext x
  unfold Mem.set
  split
  · rename_i e; subst e; rw [if_neg (Ne.symm h)]
  · rfl

theorem set_none (m : Mem) {p : Ptr} (c : Option Cell) (h : m p = none) : (m.set p c).set p none = m := by
  rw [set_set]; exact set_same h

theorem newText (A : Allocator) (t : Str) (m : Mem) : alloc A (.text t) m = .abort ∨ ∃ p m', alloc A (.text t) m = .ok (p, m') ∧ Holding m p t m' := by
  rcases alloc_spec A (.text t) m with e | ⟨p, e, hp, hA⟩
  · exact .inl e
  · exact .inr ⟨p, _, e, hp, hA.fresh p (by simp), rfl⟩

theorem readText_spec {m m' : Mem} {p t} (h : Holding m p t m') : readText m' p = .ok t := by
  obtain ⟨_, _, rfl⟩ := h
  rw [readText, set_eq]

theorem freeBlock_text {m m' : Mem} {p t} (h : Holding m p t m') : freeBlock m' p = .ok m := by
  obtain ⟨h0, h1, rfl⟩ := h
  rw [freeBlock, if_neg h0, set_eq]
  dsimp only
  rw [set_none _ _ h1]

theorem bufFree_spec {m m' : Mem} {p t} (h : Holding m p t m') : bufFree p m' = .ok m := by
  rw [bufFree, if_neg h.1, freeBlock_text h]

/-- Below a text. -/
theorem Holding.below {m m' m'' : Mem} {p t q x} (h : Holding m p t m') (h' : Holding m' q x m'') :
    ∃ m₁, Holding m q x m₁ ∧ Holding m₁ p t m'' := by
  obtain ⟨h0, h1, rfl⟩ := h
  obtain ⟨h2, h3, rfl⟩ := h'
  have hne : q ≠ p := fun e => by rw [e, set_eq] at h3; cases h3
  refine ⟨m.set q (some (.text x)), ⟨h2, by rwa [set_ne _ _ hne] at h3, rfl⟩, h0, by rw [set_ne _ _ hne.symm, h1], ?_⟩
  exact set_swap _ _ _ hne.symm

theorem bufAdd_spec (A : Allocator) {m m' : Mem} {p t} (h : Holding m p t m') (x : Str) :
    bufAdd A p x m' = .abort ∨ ∃ q m₂, bufAdd A p x m' = .ok (q, m₂) ∧ Holding m q (t ++ x) m₂ := by
  rw [bufAdd, readText_spec h, bind_ok]
  rcases newText A (t ++ x) m' with e | ⟨q, m₂, e, hq⟩
  · rw [e]; exact .inl rfl
  · rw [e, bind_ok]
    dsimp only
    obtain ⟨m₁, h1, h2⟩ := h.below hq
    rw [freeBlock_text h2, bind_ok]
    exact .inr ⟨q, m₁, rfl, h1⟩

theorem bufTake_spec (A : Allocator) {m m' m'' : Mem} {p t q x} (h : Holding m p t m') (hq : Holding m' q x m'') :
    bufTake A p q m'' = .abort ∨ ∃ r m₂, bufTake A p q m'' = .ok (r, m₂) ∧ Holding m r (t ++ x) m₂ := by
  rw [bufTake, readText_spec hq, bind_ok]
  obtain ⟨m₁, h1, h2⟩ := h.below hq
  rcases bufAdd_spec A h2 x with e | ⟨r, m₂, e, hr⟩
  · rw [e]; exact .inl rfl
  · rw [e, bind_ok]
    dsimp only
    obtain ⟨m₃, h3, h4⟩ := h1.below hr
    rw [freeBlock_text h4, bind_ok]
    exact .inr ⟨r, m₃, rfl, h3⟩

/-! ## Names of functions -/

theorem gdbChunkLoop_spec (A : Allocator) (sp : Bool) {m : Mem} : ∀ (fuel : Nat) (s : Str) (p : Ptr) (acc : Str) (m' : Mem) {v},
    Gdb.chunkLoop sp fuel s = .ok v → Holding m p acc m' → Writes m acc v (gdbChunkLoop A sp fuel s p m')
  | 0, _, _, _, _, _, hv, _ => by cases hv
  | fuel + 1, s, p, acc, m', v, hv, h => by
    rw [Gdb.chunkLoop] at hv
    rw [gdbChunkLoop]
    split at hv
    · rename_i c
      rw [if_pos c]
      cases hv
      exact .inr ⟨p, m', rfl, by simpa using h⟩
    · rename_i c
      rw [if_neg c]
      obtain ⟨r, h1, h2⟩ := bind_ok_iff.1 hv
      rw [h1, bind_ok]
      rcases bufAdd_spec A h r.1 with e | ⟨q, m₂, e, hq⟩
      · rw [e]; exact .inl rfl
      rw [e, bind_ok]
      dsimp only
      split at h2
      · rename_i c
        rw [if_pos c]
        cases h2
        exact .inr ⟨q, m₂, rfl, hq⟩
      · rename_i c
        rw [if_neg c]
        obtain ⟨t, h3, h4⟩ := bind_ok_iff.1 h2
        obtain ⟨w, h5, h6⟩ := bind_ok_iff.1 h4
        cases h6
        rw [h3, bind_ok]
        rcases bufAdd_spec A hq [peek r.2] with e | ⟨q₂, m₃, e, hq₂⟩
        · rw [e]; exact .inl rfl
        rw [e, bind_ok]
        dsimp only
        have := gdbChunkLoop_spec A sp fuel t q₂ _ m₃ h5 hq₂
        simpa [Writes] using this

theorem gdbChunk_spec (A : Allocator) (sp : Bool) (m : Mem) {s v} (hv : Gdb.chunk sp s = .ok v) : MakesText m v (gdbChunk A sp s m) := by
  obtain ⟨r, h1, h2⟩ := bind_ok_iff.1 hv
  rw [gdbChunk]
  rcases newText A [] m with e | ⟨p, m', e, hp⟩
  · rw [e]; exact .inl rfl
  rw [e, bind_ok]
  dsimp only
  rcases gdbChunkLoop_spec A sp _ s p [] m' h1 hp with e | ⟨q, m₂, e, hq⟩
  · rw [e]; exact .inl rfl
  rw [e, bind_ok]
  dsimp only
  rw [readText_spec hq, bind_ok]
  cases h2
  by_cases c : r.1 = []
  · rw [if_pos c, if_pos (by simpa using c), bufFree_spec hq, bind_ok]
    exact .inr ⟨s, rfl⟩
  · rw [if_neg c, if_neg (by simpa using c)]
    exact .inr ⟨q, m₂, rfl, hq⟩

theorem gdbTemplateArgs_spec (A : Allocator) (m : Mem) {s v} (hv : Gdb.templateArgs s = .ok v) : MakesText m v (gdbTemplateArgs A s m) := by
  rw [Gdb.templateArgs] at hv
  rw [gdbTemplateArgs]
  split at hv
  · rename_i c
    rw [if_pos c]
    cases hv
    exact .inr ⟨s, rfl⟩
  · rename_i c
    rw [if_neg c]
    obtain ⟨b, h1, h2⟩ := bind_ok_iff.1 hv
    rcases newText A [] m with e | ⟨p, m', e, hp⟩
    · rw [e]; exact .inl rfl
    rw [e, bind_ok]
    dsimp only
    rcases bufAdd_spec A hp c!" [with " with e | ⟨q, m₂, e, hq⟩
    · rw [e]; exact .inl rfl
    rw [e, bind_ok]
    dsimp only
    rcases bufAdd_spec A hq (Gdb.templateArgsLoop 1 (skipString s c!" [with ").2).1 with e | ⟨q₂, m₃, e, hq₂⟩
    · rw [e]; exact .inl rfl
    rw [e, bind_ok]
    dsimp only
    rw [h1, bind_ok]
    cases h2
    cases hb : b.1
    · rw [if_pos rfl, bufFree_spec hq₂, bind_ok]
      exact .inr ⟨s, rfl⟩
    · rw [if_pos rfl, if_neg (by simp)]
      rcases bufAdd_spec A hq₂ [']'] with e | ⟨q₃, m₄, e, hq₃⟩
      · rw [e]; exact .inl rfl
      rw [e, bind_ok]
      exact .inr ⟨q₃, m₄, rfl, by simpa using hq₃⟩

theorem gdbOr_spec {m : Mem} {v a b} {x y : Mem → Out (Ptr × Str × Mem)} (hv : Gdb.orElse a b = .ok v) (hx : ∀ w, a = .ok w → MakesText m w (x m))
    (hy : ∀ w, b = .ok w → MakesText m w (y m)) : MakesText m v (gdbOr x y m) := by
  obtain ⟨r, h1, h2⟩ := bind_ok_iff.1 hv
  rw [gdbOr]
  rcases hx r h1 with e | h
  · rw [e]; exact .inl rfl
  cases r with
  | none =>
    obtain ⟨t, e⟩ := h
    rw [e, bind_ok]
    dsimp only
    rw [if_neg (by simp)]
    exact hy v h2
  | some r =>
    cases h2
    obtain ⟨p, m', e, hp⟩ := h
    rw [e, bind_ok]
    dsimp only
    rw [if_pos hp.1]
    exact .inr ⟨p, m', rfl, hp⟩

theorem gdbBracket_spec (A : Allocator) (left right : Char) {m : Mem} {inner : Str → Out (Str × Str)} {inner' : Str → Ptr → Mem → Out (Ptr × Str × Mem)}
    {s v} (hv : Gdb.bracket left right inner s = .ok v)
    (hi : ∀ t p acc m' w, inner t = .ok w → Holding m p acc m' → Writes m acc w (inner' t p m')) : MakesText m v (gdbBracket A left right inner' s m) := by
  obtain ⟨a, h1, h2⟩ := bind_ok_iff.1 hv
  rw [gdbBracket, h1, bind_ok]
  split at h2
  · rename_i c
    rw [if_pos c]
    cases h2
    exact .inr ⟨s, rfl⟩
  · rename_i c
    rw [if_neg c]
    obtain ⟨r, h3, h4⟩ := bind_ok_iff.1 h2
    obtain ⟨b, h5, h6⟩ := bind_ok_iff.1 h4
    rcases newText A [] m with e | ⟨p, m', e, hp⟩
    · rw [e]; exact .inl rfl
    rw [e, bind_ok]
    dsimp only
    rcases bufAdd_spec A hp [left] with e | ⟨q, m₂, e, hq⟩
    · rw [e]; exact .inl rfl
    rw [e, bind_ok]
    dsimp only
    rcases hi _ _ _ _ _ h3 hq with e | ⟨q₂, m₃, e, hq₂⟩
    · rw [e]; exact .inl rfl
    rw [e, bind_ok]
    dsimp only
    rw [h5, bind_ok]
    cases h6
    cases hb : b.1
    · rw [if_pos rfl, bufFree_spec hq₂, bind_ok]
      exact .inr ⟨s, rfl⟩
    · rw [if_pos rfl, if_neg (by simp)]
      rcases bufAdd_spec A hq₂ [right] with e | ⟨q₃, m₄, e, hq₃⟩
      · rw [e]; exact .inl rfl
      rw [e, bind_ok]
      exact .inr ⟨q₃, m₄, rfl, by simpa using hq₃⟩

theorem gdbRep_spec (A : Allocator) {m m' : Mem} {part again} {part' : Str → Mem → Out (Ptr × Str × Mem)} {again' : Str → Ptr → Mem → Out (Ptr × Str × Mem)}
    {s v p acc} (hv : Gdb.rep part again s = .ok v) (h : Holding m p acc m') (hp : ∀ w, part s = .ok w → MakesText m' w (part' s m'))
    (ha : ∀ t p acc m' w, again t = .ok w → Holding m p acc m' → Writes m acc w (again' t p m')) : Writes m acc v (gdbRep A part' again' s p m') := by
  obtain ⟨r, h1, h2⟩ := bind_ok_iff.1 hv
  rw [gdbRep]
  rcases hp r h1 with e | hr
  · rw [e]; exact .inl rfl
  cases r with
  | none =>
    obtain ⟨t, e⟩ := hr
    cases h2
    rw [e, bind_ok]
    dsimp only
    rw [if_pos rfl]
    exact .inr ⟨p, m', rfl, by simpa using h⟩
  | some r =>
    obtain ⟨q, m₂, e, hq⟩ := hr
    obtain ⟨w, h3, h4⟩ := bind_ok_iff.1 h2
    cases h4
    rw [e, bind_ok]
    dsimp only
    rw [if_neg hq.1]
    rcases bufTake_spec A h hq with e | ⟨q₂, m₃, e, hq₂⟩
    · rw [e]; exact .inl rfl
    rw [e, bind_ok]
    dsimp only
    have := ha _ _ _ _ _ h3 hq₂
    simpa [Writes] using this

theorem gdbInner_spec (A : Allocator) : ∀ (fuel : Nat) (m : Mem) (template : Bool) (s : Str) (p : Ptr) (acc : Str) (m' : Mem) (v : Str × Str),
    Gdb.inner fuel template s = .ok v → Holding m p acc m' → Writes m acc v (gdbInner A fuel template s p m')
  | 0, _, _, _, _, _, _, _, hv, _ => by cases hv
  | fuel + 1, m, template, s, p, acc, m', v, hv, h => by
    rw [Gdb.inner] at hv
    rw [gdbInner]
    refine gdbRep_spec A hv h (fun w hw => gdbOr_spec hw (fun u hu => ?_) fun u hu => gdbOr_spec hu (fun u hu => gdbChunk_spec A true m' hu) fun u hu =>
      gdbOr_spec hu (fun u hu => gdbBracket_spec A '(' ')' hu (gdbInner_spec A fuel m' false)) fun u hu =>
      gdbBracket_spec A '<' '>' hu (gdbInner_spec A fuel m' true)) (gdbInner_spec A fuel m template)
    cases template
    · cases hu
      exact .inr ⟨s, rfl⟩
    · exact gdbTemplateArgs_spec A m' hu

theorem gdbBraces_spec (A : Allocator) (m : Mem) {s v} (hv : Gdb.braces s = .ok v) : MakesText m v (gdbBraces A s m) :=
  gdbBracket_spec A '(' ')' hv (gdbInner_spec A _ m false)

theorem gdbTemplate_spec (A : Allocator) (m : Mem) {s v} (hv : Gdb.template s = .ok v) : MakesText m v (gdbTemplate A s m) :=
  gdbBracket_spec A '<' '>' hv (gdbInner_spec A _ m true)

theorem gdbParts_spec (A : Allocator) : ∀ (fuel : Nat) (m : Mem) (s : Str) (p : Ptr) (acc : Str) (m' : Mem) (v : Str × Str),
    Gdb.nameParts fuel s = .ok v → Holding m p acc m' → Writes m acc v (gdbParts A fuel s p m')
  | 0, _, _, _, _, _, _, hv, _ => by cases hv
  | fuel + 1, m, s, p, acc, m', v, hv, h => by
    rw [Gdb.nameParts] at hv
    rw [gdbParts]
    exact gdbRep_spec A hv h (fun w hw => gdbOr_spec hw (fun u hu => gdbChunk_spec A false m' hu) fun u hu =>
      gdbOr_spec hu (fun u hu => gdbBraces_spec A m' hu) fun u hu => gdbTemplate_spec A m' hu) (gdbParts_spec A fuel m)

theorem gdbStart_spec (A : Allocator) (m : Mem) {s v} (hv : Gdb.nameStart s = .ok v) : MakesText m v (gdbStart A s m) := by
  obtain ⟨c, h1, h2⟩ := bind_ok_iff.1 hv
  rw [gdbStart]
  rcases newText A [] m with e | ⟨p, m', e, hp⟩
  · rw [e]; exact .inl rfl
  rw [e, bind_ok]
  dsimp only
  rw [h1, bind_ok]
  cases hc : c.1 with
  | some x =>
    rw [hc] at h2
    dsimp only at h2 ⊢
    cases h2
    by_cases hx : x = 'o'
    · rw [if_pos hx, if_pos hx]
      exact .inr ⟨p, m', rfl, hp⟩
    · rw [if_neg hx, if_neg hx]
      rcases bufAdd_spec A hp [x] with e | ⟨q, m₂, e, hq⟩
      · rw [e]; exact .inl rfl
      rw [e, bind_ok]
      exact .inr ⟨q, m₂, rfl, hq⟩
  | none =>
    rw [hc] at h2
    dsimp only at h2 ⊢
    rcases gdbBraces_spec A m' h2 with e | h
    · rw [e]; exact .inl rfl
    cases v with
    | none =>
      obtain ⟨t, e⟩ := h
      rw [e, bind_ok]
      dsimp only
      rw [if_pos rfl, bufFree_spec hp, bind_ok]
      exact .inr ⟨s, rfl⟩
    | some r =>
      obtain ⟨q, m₂, e, hq⟩ := h
      rw [e, bind_ok]
      dsimp only
      rw [if_neg hq.1]
      rcases bufTake_spec A hp hq with e | ⟨q₂, m₃, e, hq₂⟩
      · rw [e]; exact .inl rfl
      rw [e, bind_ok]
      exact .inr ⟨q₂, m₃, rfl, hq₂⟩

end Satyr.Heap
