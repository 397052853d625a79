import Verif.Heap.GdbTextNames
import Verif.CStr.Exact
/-!
# Reading gdb stack traces from text: function calls and locations
-/
namespace Satyr.Heap
open Satyr.CStr

/-- Memory `m'` is memory `m` with a name at `p` and, if there is one, a type at `q` in addition. -/
def Named (m : Mem) (n : Str × Option Str) (p q : Ptr) (m' : Mem) : Prop :=
  match n.2 with
  | none => q = 0 ∧ Holding m p n.1 m'
  | some y => ∃ m₁, Holding m q y m₁ ∧ Holding m₁ p n.1 m'

/-- What a function does that reads a name and a type. -/
def MakesName (m : Mem) (v : Option ((Str × Option Str) × Str)) (o : Out (Option ((Ptr × Ptr) × Str) × Mem)) : Prop :=
  o = .abort ∨ match (generalizing := false) v with
  | none => o = .ok (none, m)
  | some (n, s) => ∃ p q m', o = .ok (some ((p, q), s), m') ∧ Named m n p q m'

theorem gdbConst_spec (A : Allocator) {m m' : Mem} {space s p acc v} (hv : Gdb.constSuffix space s = .ok v) (h : Holding m p acc m') :
    gdbConst A space s p m' = .abort ∨ match (generalizing := false) v with
    | none => gdbConst A space s p m' = .ok (none, m)
    | some (x, sp, t) => ∃ q m₂, gdbConst A space s p m' = .ok (some (q, sp, t), m₂) ∧ Holding m q (acc ++ x) m₂ := by
  rw [Gdb.constSuffix] at hv
  rw [gdbConst]
  split at hv
  · rename_i c
    rw [if_pos c]
    cases hv
    exact .inr ⟨p, m', rfl, by simpa using h⟩
  · rename_i c
    rw [if_neg c]
    obtain ⟨r, h1, h2⟩ := bind_ok_iff.1 hv
    rcases bufAdd_spec A h (space :: c!"const") with e | ⟨q, m₂, e, hq⟩
    · rw [e]; exact .inl rfl
    rw [e, bind_ok]
    dsimp only
    rw [h1, bind_ok]
    cases hr : r.1 with
    | none =>
      rw [hr] at h2
      cases h2
      dsimp only
      rw [bufFree_spec hq]
      exact .inr rfl
    | some x =>
      rw [hr] at h2
      cases h2
      exact .inr ⟨q, m₂, rfl, hq⟩

/-- A text that begins with `const` begins with a name. -/
theorem chunk_const {s : Str} (h : (skipString s c!"const").1 ≠ 0) : Gdb.chunk false s ≠ .ok none := by
  obtain ⟨t, rfl⟩ : ∃ t, s = 'c' :: t := by
    cases s with
    | nil => exact absurd rfl h
    | cons c t =>
      refine ⟨t, ?_⟩
      by_contra hc
      have hc : c ≠ 'c' := fun e => hc (by rw [e])
      refine h ?_
      rw [skipString, if_pos]
      rw [matchLoop, if_neg (by simp [hc])]
      simp
  intro hc
  obtain ⟨r, h1, h2⟩ := bind_ok_iff.1 hc
  rw [Gdb.chunkLoop] at h1
  have ho : Gdb.chunkOperator ('c' :: t) = .ok ([], 'c' :: t) := by
    rw [Gdb.chunkOperator, Gdb.parseOperator, if_pos (by rw [skipString, if_pos (by rw [matchLoop, if_neg (by decide)]; simp)])]
  rw [if_neg (show ¬ peek ('c' :: t) = '\x00' by simp [peek]), ho] at h1
  obtain ⟨r', h3, h4⟩ := bind_ok_iff.1 h1
  cases h3
  have hc : strchrHas Gdb.nameChars 'c' = true := by decide +kernel
  rw [if_neg (fun h => by have h := h.1; change strchrHas Gdb.nameChars 'c' = false at h; rw [hc] at h; cases h)] at h4
  obtain ⟨_, _, h5⟩ := bind_ok_iff.1 h4
  obtain ⟨_, _, h6⟩ := bind_ok_iff.1 h5
  cases h6
  simp at h2

theorem gdbSecond_spec (A : Allocator) {m m' : Mem} {space s p acc v} (hv : Gdb.secondPart space s = .ok v) (h : Holding m p acc m') :
    gdbSecond A space s p m' = .abort ∨ match (generalizing := false) v with
    | none => gdbSecond A space s p m' = .ok (none, m)
    | some (none, sp, t) => gdbSecond A space s p m' = .ok (some (0, sp, t), m') ∧ (skipString t c!"const").1 = 0
    | some (some x, sp, t) => ∃ q m₂, gdbSecond A space s p m' = .ok (some (q, sp, t), m₂) ∧ Holding m' q x m₂ := by
  obtain ⟨r, h1, h2⟩ := bind_ok_iff.1 hv
  rw [gdbSecond]
  rcases gdbChunk_spec A false m' h1 with e | hr
  · rw [e]; exact .inl rfl
  cases r with
  | none =>
    cases h2
    obtain ⟨t, e⟩ := hr
    rw [e, bind_ok]
    dsimp only
    rw [if_pos rfl]
    refine .inr ⟨rfl, ?_⟩
    by_contra hc
    exact chunk_const hc h1
  | some r =>
    obtain ⟨q, m₂, e, hq⟩ := hr
    rw [e, bind_ok]
    dsimp only at h2 ⊢
    rw [if_neg hq.1]
    obtain ⟨w, h3, h4⟩ := bind_ok_iff.1 h2
    obtain ⟨c, h5, h6⟩ := bind_ok_iff.1 h4
    rcases newText A [] m₂ with e | ⟨p₁, m₃, e, hp₁⟩
    · rw [e]; exact .inl rfl
    rw [e, bind_ok]
    dsimp only
    obtain ⟨m₄, k1, k2⟩ := hq.below hp₁
    rcases bufTake_spec A k1 k2 with e | ⟨p₂, m₅, e, hp₂⟩
    · rw [e]; exact .inl rfl
    rw [e, bind_ok]
    dsimp only
    rcases gdbParts_spec A _ m' _ _ _ _ _ h3 hp₂ with e | ⟨p₃, m₆, e, hp₃⟩
    · rw [e]; exact .inl rfl
    rw [e, bind_ok]
    dsimp only
    rw [h5, bind_ok]
    cases hc : c.1 with
    | none =>
      rw [hc] at h6
      cases h6
      dsimp only
      obtain ⟨m₇, k3, k4⟩ := h.below hp₃
      rw [bufFree_spec k4, bind_ok, bufFree_spec k3]
      exact .inr rfl
    | some x =>
      rw [hc] at h6
      cases h6
      exact .inr ⟨p₃, m₆, rfl, hp₃⟩

theorem gdbLast_spec (A : Allocator) {m m₁ m' : Mem} {space s p acc p₁} {b : Option Str} {v} (hv : Gdb.lastConst space s = .ok v) (h : Holding m p acc m₁)
    (hb : match b with
      | none => p₁ = 0 ∧ m' = m₁ ∧ (skipString s c!"const").1 = 0
      | some x => Holding m₁ p₁ x m') :
    MakesName m (v.map fun l => (Gdb.nameAndType acc b l.1, l.2)) (gdbLast A space s p p₁ m') := by
  rw [Gdb.lastConst] at hv
  rw [gdbLast]
  cases b with
  | none =>
    obtain ⟨rfl, rfl, c⟩ := hb
    rw [if_pos c] at hv ⊢
    cases hv
    refine .inr ⟨p, 0, m', rfl, rfl, by simpa [Gdb.nameAndType] using h⟩
  | some x =>
    dsimp only at hb
    split at hv
    · rename_i c
      rw [if_pos c, if_pos hb.1]
      cases hv
      exact .inr ⟨p₁, p, m', rfl, m₁, h, by simpa [Gdb.nameAndType] using hb⟩
    · rename_i c
      rw [if_neg c, if_pos hb.1]
      obtain ⟨r, h1, h2⟩ := bind_ok_iff.1 hv
      rcases bufAdd_spec A hb (space :: c!"const") with e | ⟨q, m₂, e, hq⟩
      · rw [e]; exact .inl rfl
      rw [e, bind_ok]
      dsimp only
      rw [h1, bind_ok, if_pos hb.1, if_pos hb.1, if_pos hb.1]
      cases h2
      cases hr : r.1
      · rw [if_neg (by simp), if_pos rfl]
        obtain ⟨m₃, k1, k2⟩ := h.below hq
        rw [bufFree_spec k2, bind_ok, bufFree_spec k1]
        exact .inr rfl
      · rw [if_pos rfl, if_neg (by simp)]
        exact .inr ⟨q, p, m₂, rfl, m₁, h, hq⟩

theorem gdbAfter_spec (A : Allocator) {m m' : Mem} {space s p acc v} (hv : Gdb.afterSpace acc space s = .ok v) (h : Holding m p acc m') :
    MakesName m v (gdbAfter A space s p m') := by
  obtain ⟨k, h1, h2⟩ := bind_ok_iff.1 hv
  rw [gdbAfter]
  rcases gdbConst_spec A h1 h with e | hk
  · rw [e]; exact .inl rfl
  cases k with
  | none =>
    cases h2
    dsimp only at hk
    rw [hk]
    exact .inr rfl
  | some k =>
    obtain ⟨q, m₂, e, hq⟩ := hk
    rw [e, bind_ok]
    dsimp only at h2 ⊢
    obtain ⟨r, h3, h4⟩ := bind_ok_iff.1 h2
    rcases gdbSecond_spec A h3 hq with e | hr
    · rw [e]; exact .inl rfl
    match r, hr, h4 with
    | none, hr, h4 =>
      cases h4
      dsimp only at hr
      rw [hr]
      exact .inr rfl
    | some (none, sp, t), hr, h4 =>
      obtain ⟨hr, hc⟩ := hr
      rw [hr, bind_ok]
      dsimp only at h4 ⊢
      obtain ⟨l, h5, h6⟩ := bind_ok_iff.1 h4
      have := gdbLast_spec A (b := none) h5 hq ⟨rfl, rfl, hc⟩
      cases l <;> cases h6 <;> exact this
    | some (some x, sp, t), hr, h4 =>
      obtain ⟨q₂, m₃, hr, hq₂⟩ := hr
      rw [hr, bind_ok]
      dsimp only at h4 ⊢
      obtain ⟨l, h5, h6⟩ := bind_ok_iff.1 h4
      have := gdbLast_spec A (b := some x) h5 hq hq₂
      cases l <;> cases h6 <;> exact this

theorem gdbName_spec (A : Allocator) (m : Mem) {s v} (hv : Gdb.functionName s = .ok v) : MakesName m v (gdbName A s m) := by
  unfold Gdb.functionName at hv
  unfold gdbName
  split at hv
  · rename_i x t hp
    cases hv
    rw [hp]
    dsimp only
    rcases newText A x m with e | ⟨p, m', e, hp⟩
    · rw [e]; exact .inl rfl
    rw [e, bind_ok]
    exact .inr ⟨p, 0, m', rfl, rfl, hp⟩
  · rename_i t hp
    rw [hp]
    dsimp only
    obtain ⟨a, h1, h2⟩ := bind_ok_iff.1 hv
    rcases gdbStart_spec A m h1 with e | ha
    · rw [e]; exact .inl rfl
    cases a with
    | none =>
      cases h2
      obtain ⟨t, e⟩ := ha
      rw [e, bind_ok]
      dsimp only
      rw [if_pos rfl]
      exact .inr rfl
    | some a =>
      obtain ⟨q, m₂, e, hq⟩ := ha
      rw [e, bind_ok]
      dsimp only at h2 ⊢
      rw [if_neg hq.1]
      obtain ⟨w, h3, h4⟩ := bind_ok_iff.1 h2
      obtain ⟨c, h5, h6⟩ := bind_ok_iff.1 h4
      rcases gdbParts_spec A _ m _ _ _ _ _ h3 hq with e | ⟨p₃, m₆, e, hp₃⟩
      · rw [e]; exact .inl rfl
      rw [e, bind_ok]
      dsimp only
      rw [h5, bind_ok]
      cases hc : c.1 with
      | none =>
        rw [hc] at h6
        cases h6
        dsimp only
        rw [bufFree_spec hp₃]
        exact .inr rfl
      | some x =>
        rw [hc] at h6
        exact gdbAfter_spec A h6 hp₃

theorem freeBoth_spec {m m' : Mem} {n p q} (h : Named m n p q m') : freeBoth (p, q) m' = .ok m := by
  unfold Named at h
  rw [freeBoth]
  cases hn : n.2 with
  | none =>
    rw [hn] at h
    obtain ⟨rfl, h⟩ := h
    rw [freeBlock_text h, bind_ok, freeBlock, if_pos rfl]
  | some y =>
    rw [hn] at h
    obtain ⟨m₁, h, h'⟩ := h
    rw [freeBlock_text h', bind_ok, freeBlock_text h]

theorem gdbCall_spec (A : Allocator) (m : Mem) {s v} (hv : Gdb.functionCall s = .ok v) : MakesName m v (gdbCall A s m) := by
  obtain ⟨n, h1, h2⟩ := bind_ok_iff.1 hv
  rw [gdbCall]
  rcases gdbName_spec A m h1 with e | hn
  · rw [e]; exact .inl rfl
  cases n with
  | none =>
    cases h2
    dsimp only at hn
    rw [hn]
    exact .inr rfl
  | some n =>
    obtain ⟨p, q, m', e, hq⟩ := hn
    rw [e, bind_ok]
    dsimp only at h2 ⊢
    obtain ⟨w, h3, h4⟩ := bind_ok_iff.1 h2
    rw [h3, bind_ok]
    split at h4
    · rename_i c
      cases h4
      rw [if_pos c, freeBoth_spec hq]
      exact .inr rfl
    · rename_i c
      rw [if_neg c]
      obtain ⟨r, h5, h6⟩ := bind_ok_iff.1 h4
      rw [h5, bind_ok]
      cases h6
      cases r with
      | none =>
        dsimp only
        rw [freeBoth_spec hq]
        exact .inr rfl
      | some t => exact .inr ⟨p, q, m', rfl, hq⟩

theorem gdbAddress_spec (A : Allocator) (m : Mem) {s v} (hv : Gdb.addressInFunction s = .ok v) : gdbAddress A s m = .abort ∨
    match (generalizing := false) v with
    | (a, none) => gdbAddress A s m = .ok (a, none, m)
    | (a, some (n, t)) => ∃ p q m', gdbAddress A s m = .ok (a, some ((p, q), t), m') ∧ Named m n p q m' := by
  obtain ⟨a, h1, h2⟩ := bind_ok_iff.1 hv
  rw [gdbAddress, h1, bind_ok]
  split at h2
  · rename_i c
    rw [if_pos c]
    obtain ⟨r, h3, h4⟩ := bind_ok_iff.1 h2
    cases h4
    rcases gdbCall_spec A m h3 with e | hn
    · rw [e]; exact .inl rfl
    cases r with
    | none =>
      dsimp only at hn
      rw [hn]
      exact .inr rfl
    | some r =>
      obtain ⟨p, q, m', e, hq⟩ := hn
      rw [e]
      exact .inr ⟨p, q, m', rfl, hq⟩
  · rename_i c
    rw [if_neg c]
    obtain ⟨b, h3, h4⟩ := bind_ok_iff.1 h2
    rw [h3, bind_ok]
    cases b with
    | none =>
      cases h4
      exact .inr rfl
    | some b =>
      dsimp only at h4 ⊢
      obtain ⟨r, h5, h6⟩ := bind_ok_iff.1 h4
      cases h6
      rcases gdbCall_spec A m h5 with e | hn
      · rw [e]; exact .inl rfl
      cases r with
      | none =>
        dsimp only at hn
        rw [hn]
        exact .inr rfl
      | some r =>
        obtain ⟨p, q, m', e, hq⟩ := hn
        rw [e]
        exact .inr ⟨p, q, m', rfl, hq⟩

/-- Memory `m'` is memory `m` with a text at `p`, if there is one, in addition. -/
def HoldingOpt (m : Mem) (p : Ptr) (t : Option Str) (m' : Mem) : Prop :=
  match t with
  | none => p = 0 ∧ m' = m
  | some t => Holding m p t m'

theorem gdbLocation_spec (A : Allocator) (m : Mem) {s v} (hv : Gdb.fileLocation s = .ok v) : gdbLocation A s m = .abort ∨
    match (generalizing := false) v with
    | none => gdbLocation A s m = .ok (none, m)
    | some (f, line, t) => ∃ p m', gdbLocation A s m = .ok (some (p, line, t), m') ∧ HoldingOpt m p f m' := by
  obtain ⟨w, h1, h2⟩ := bind_ok_iff.1 hv
  rw [gdbLocation, h1, bind_ok]
  split at h2
  · rename_i c
    rw [if_pos c]
    cases h2
    exact .inr rfl
  rename_i c
  rw [if_neg c]
  obtain ⟨k, h3, h4⟩ := bind_ok_iff.1 h2
  rw [h3, bind_ok]
  cases k with
  | none => cases h4; exact .inr rfl
  | some k =>
    dsimp only at h4 ⊢
    obtain ⟨f, h5, h6⟩ := bind_ok_iff.1 h4
    rw [h5, bind_ok]
    cases hf : f.1 with
    | none => rw [hf] at h6; cases h6; exact .inr rfl
    | some name =>
      rw [hf] at h6
      dsimp only at h6 ⊢
      obtain ⟨l, h7, h8⟩ := bind_ok_iff.1 h6
      rcases newText A name m with e | ⟨p, m', e, hp⟩
      · rw [e]; exact .inl rfl
      rw [e, bind_ok]
      dsimp only
      have hsrc : ∃ q m₂, gdbSource p m' = .ok (q, m₂) ∧ HoldingOpt m q (Gdb.sourceName name) m₂ := by
        rw [gdbSource, readText_spec hp, bind_ok]
        cases hn : Gdb.sourceName name with
        | none =>
          dsimp only
          rw [freeBlock_text hp]
          exact ⟨0, m, rfl, rfl, rfl⟩
        | some x =>
          have : x = name := by
            unfold Gdb.sourceName at hn
            split at hn
            · cases hn; rfl
            · split at hn <;> cases hn; rfl
          subst this
          exact ⟨p, m', rfl, hp⟩
      obtain ⟨q, m₂, e2, hq⟩ := hsrc
      rw [e2, bind_ok]
      dsimp only
      rw [h7, bind_ok]
      cases l with
      | none =>
        cases h8
        dsimp only
        have : freeBlock m₂ q = .ok m := by
          cases hn : Gdb.sourceName name with
          | none =>
            rw [hn] at hq
            obtain ⟨rfl, rfl⟩ := hq
            rw [freeBlock, if_pos rfl]
          | some x =>
            rw [hn] at hq
            exact freeBlock_text hq
        rw [this]
        exact .inr rfl
      | some l =>
        cases h8
        exact .inr ⟨q, m₂, rfl, hq⟩

end Satyr.Heap
