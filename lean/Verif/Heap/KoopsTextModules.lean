import Verif.Heap.KoopsTextFrames
import Verif.Text.KoopsSafe
/-!
# Reading kernel oopses from text: memory of modules
-/
namespace Satyr.Text.Koops
open Satyr.CStr

/-! ## Specification: what is lost -/

/-- The second parts of the names that are broken over two lines, in a list of modules; `any` says whether there is a name before. -/
def brokenNames : Nat → Bool → Nat → Str → Out (List Str)
  | 0, _, _, _ => .ub
  | fuel + 1, any, ws, s => do
    let m ← parseCharCspan s c!" \t\n["
    match m.1 with
    | some _ => do
      let w ← skipCharSpan m.2 c!" \t"
      brokenNames fuel true w.1 w.2
    | none =>
      if peek s = '\n' then do
        let t ← advance s
        let c ← listContinues t
        if c = false then .ok [] else
        if peek t ≠ ' ' ∧ ws = 0 ∧ any = true then do
          let r ← parseCharCspan t c!" \t\n["
          match r.1 with
          | none => .ok []
          | some rest => do
            let w ← skipCharSpan r.2 c!" \t"
            let l ← brokenNames fuel true w.1 w.2
            .ok (rest :: l)
        else do
          let w ← skipCharSpan t c!" \t"
          brokenNames fuel any w.1 w.2
      else .ok []

/-- The same for a line that starts a list of modules. -/
def brokenModules (s : Str) : Out (List Str) := do
  let t ← skipBlanks s
  let w ← skipCharSpan (skipString t c!"Modules linked in:").2 c!" \t"
  brokenNames (w.2.length + 1) false w.1 w.2

end Satyr.Text.Koops

namespace Satyr.Heap
open Satyr.CStr
open Satyr.Text
open Satyr.Frames
open Satyr.Json (Value)

/-- At these addresses there are these texts. -/
def AllTexts (m : Mem) (ss : List Str) (ps : List Ptr) : Prop := List.Forall₂ (fun s p => p ≠ 0 ∧ m p = some (.text s)) ss ps

theorem AllTexts.texts {m ss ps} (h : AllTexts m ss ps) : Texts m (ss.map some) ps ps := by
  induction h with
  | nil => exact .nil
  | cons h _ ih => exact .some h.1 h.2 ih

theorem AllTexts.congr {m m' ss ps} (h : AllTexts m ss ps) (hm : ∀ y ∈ ps, m' y = m y) : AllTexts m' ss ps := by
  induction h with
  | nil => exact .nil
  | @cons s p ss ps h _ ih =>
    exact .cons ⟨h.1, by rw [hm p (by simp)]; exact h.2⟩ (ih fun y hy => hm y (by simp [hy]))

theorem AllTexts.used {m ss ps} (h : AllTexts m ss ps) : ∀ y ∈ ps, m y ≠ none := h.texts.used

theorem AllTexts.ext {m m' ss ps} (h : AllTexts m ss ps) (hm : Ext m m') : AllTexts m' ss ps := h.congr fun y hy => hm y (h.used y hy)

theorem AllTexts.snoc {m ss ps s p} (h : AllTexts m ss ps) (h0 : p ≠ 0) (hp : m p = some (.text s)) : AllTexts m (ss ++ [s]) (ps ++ [p]) := by
  induction h with
  | nil => exact .cons ⟨h0, hp⟩ .nil
  | cons h _ ih => exact .cons h ih

theorem AllTexts.unsnoc {m ss ps} (h : AllTexts m ss ps) : ss ≠ [] →
    ∃ ss' ps' s p, ss = ss' ++ [s] ∧ ps = ps' ++ [p] ∧ AllTexts m ss' ps' ∧ p ≠ 0 ∧ m p = some (.text s) := by
  induction h with
  | nil => intro h; exact absurd rfl h
  | @cons s p ss ps h ht ih =>
    intro _
    cases ht with
    | nil => exact ⟨[], [], s, p, rfl, rfl, .nil, h.1, h.2⟩
    | cons h1 h2 =>
      obtain ⟨ss', ps', s', p', e1, e2, h3, h4⟩ := ih (by simp)
      exact ⟨s :: ss', p :: ps', s', p', by rw [e1]; rfl, by rw [e2]; rfl, .cons h h3, h4⟩

theorem AllTexts.empty {m ss ps} (h : AllTexts m ss ps) : ps ≠ [] ↔ ss ≠ [] := by
  cases h <;> simp

theorem adds_split {m m' : Mem} {f g : List Ptr} (h : Adds m m' (f ++ g)) : Adds m (erase m' g) f ∧ Adds (erase m' g) m' g := by
  have hd := List.nodup_append.1 h.nodup
  have kf : ∀ y ∈ f, erase m' g y = m' y := fun y hy => if_neg fun hg => hd.2.2 y hy y hg rfl
  refine ⟨⟨hd.1, fun y hy => h.fresh y (by simp [hy]), fun y hy => by rw [kf y hy]; exact h.used y (by simp [hy]), fun y hy => ?_⟩,
    hd.2.1, fun y hy => if_pos hy, fun y hy => h.used y (by simp [hy]), fun y hy => (if_neg hy).symm⟩
  by_cases hg : y ∈ g
  · rw [h.fresh y (by simp [hg])]; exact if_pos hg
  · rw [show erase m' g y = m' y from if_neg hg]; exact h.same y (by simp [hy, hg])

theorem modulesLoop_more : ∀ (fuel : Nat) (mods : List Str) (size ws : Nat) (inp : Str) {r},
    Koops.modulesLoop fuel mods size ws inp = .ok r →
    (∃ l, Koops.brokenNames fuel (!mods.isEmpty) ws inp = .ok l) ∧ r.1.length ≤ mods.length + fuel
  | 0, _, _, _, _, _, hv => by cases hv
  | fuel + 1, mods, size, ws, inp, r, hv => by
    rw [Koops.modulesLoop] at hv
    rw [Koops.brokenNames]
    obtain ⟨⟨o, u⟩, h1, h2⟩ := bind_ok_iff.1 hv
    clear hv
    rw [h1, Out.bind_ok]
    cases o with
    | some name =>
      dsimp only at h2 ⊢
      obtain ⟨⟨ms, sz⟩, h3, h4⟩ := bind_ok_iff.1 h2
      clear h2
      have hms : ms = mods ++ [name] := by
        unfold Koops.storeModule at h3
        dsimp only at h3
        split at h3 <;> split at h3 <;> cases h3 <;> rfl
      subst hms
      obtain ⟨⟨ws', u'⟩, h5, h6⟩ := bind_ok_iff.1 h4
      have := modulesLoop_more fuel _ _ _ _ h6
      have hb : (!(mods ++ [name]).isEmpty) = true := by cases mods <;> rfl
      rw [hb] at this
      rw [h5, Out.bind_ok]
      refine ⟨this.1, ?_⟩
      have := this.2
      simp only [List.length_append, List.length_singleton] at this
      omega
    | none =>
      dsimp only at h2 ⊢
      by_cases hp : peek inp = '\n'
      swap
      · rw [if_neg hp] at h2 ⊢
        cases h2
        exact ⟨⟨_, rfl⟩, by simp⟩
      rw [if_pos hp] at h2 ⊢
      obtain ⟨t, h3, h4⟩ := bind_ok_iff.1 h2
      rw [h3, Out.bind_ok]
      obtain ⟨c, h5, h6⟩ := bind_ok_iff.1 h4
      rw [h5, Out.bind_ok]
      cases c with
      | false => cases h6; exact ⟨⟨_, rfl⟩, by simp⟩
      | true =>
      rw [if_neg (by simp)] at h6 ⊢
      by_cases hc : peek t ≠ ' ' ∧ ws = 0 ∧ mods ≠ []
      · have hc' : peek t ≠ ' ' ∧ ws = 0 ∧ (!mods.isEmpty) = true := ⟨hc.1, hc.2.1, by simpa using hc.2.2⟩
        rw [if_pos hc] at h6
        rw [if_pos hc']
        obtain ⟨⟨o, v⟩, h7, h8⟩ := bind_ok_iff.1 h6
        rw [h7, Out.bind_ok]
        cases o with
        | none => cases h8; exact ⟨⟨_, rfl⟩, by simp⟩
        | some rest' =>
          dsimp only at h8 ⊢
          obtain ⟨⟨ws', v'⟩, h9, h10⟩ := bind_ok_iff.1 h8
          have := modulesLoop_more fuel _ _ _ _ h10
          have hb : (!(mods.dropLast ++ [mods.getLastD [] ++ rest']).isEmpty) = true := by cases mods.dropLast <;> rfl
          rw [hb] at this
          obtain ⟨⟨l, hl⟩, hlen⟩ := this
          rw [h9, Out.bind_ok]
          dsimp only
          rw [hl, Out.bind_ok]
          refine ⟨⟨_, rfl⟩, ?_⟩
          have := List.length_pos_iff.2 hc.2.2
          simp only [List.length_append, List.length_dropLast, List.length_singleton] at hlen
          omega
      · have hc' : ¬ (peek t ≠ ' ' ∧ ws = 0 ∧ (!mods.isEmpty) = true) := fun h => hc ⟨h.1, h.2.1, by simpa using h.2.2⟩
        rw [if_neg hc] at h6
        rw [if_neg hc']
        obtain ⟨⟨ws', v'⟩, h9, h10⟩ := bind_ok_iff.1 h6
        have := modulesLoop_more fuel _ _ _ _ h10
        rw [h9, Out.bind_ok]
        exact ⟨this.1, by have := this.2; omega⟩

theorem koopsModulesLoop_spec (A : Allocator) : ∀ (fuel : Nat) (mods : List Str) (size ws : Nat) (inp : Str) (ps qs : List Ptr) (l : List Str)
    (m₀ m : Mem) {mods' size' rest l'}, AllTexts m mods ps → AllTexts m l qs → Adds m₀ m (qs ++ ps) →
    Koops.modulesLoop fuel mods size ws inp = .ok (mods', size', rest) → Koops.brokenNames fuel (!mods.isEmpty) ws inp = .ok l' →
    koopsModulesLoop A fuel ps ws inp m = .abort ∨
    ∃ ps' qs' m', koopsModulesLoop A fuel ps ws inp m = .ok (ps', rest, m') ∧ AllTexts m' mods' ps' ∧ AllTexts m' (l ++ l') qs' ∧
      Adds m₀ m' (qs' ++ ps')
  | 0, _, _, _, _, _, _, _, _, _, _, _, _, _, _, _, _, hv, _ => by cases hv
  | fuel + 1, mods, size, ws, inp, ps, qs, l, m₀, m, mods', size', rest, l', hps, hqs, hA, hv, hl => by
    rw [Koops.modulesLoop] at hv
    rw [koopsModulesLoop]
    rw [Koops.brokenNames] at hl
    have done : AllTexts m (l ++ []) qs := by rw [List.append_nil]; exact hqs
    obtain ⟨⟨o, u⟩, h1, h2⟩ := bind_ok_iff.1 hv
    clear hv
    rw [h1, Out.bind_ok] at hl
    rw [h1, bind_ok]
    cases o with
    | some name =>
      dsimp only at h2 hl ⊢
      obtain ⟨⟨ms, sz⟩, h3, h4⟩ := bind_ok_iff.1 h2
      clear h2
      have hms : ms = mods ++ [name] := by
        unfold Koops.storeModule at h3
        dsimp only at h3
        split at h3 <;> split at h3 <;> cases h3 <;> rfl
      subst hms
      obtain ⟨⟨ws', u'⟩, h5, h6⟩ := bind_ok_iff.1 h4
      clear h4
      dsimp only at h6
      rw [h5, Out.bind_ok] at hl
      have hb : (!(mods ++ [name]).isEmpty) = true := by cases mods <;> rfl
      rcases alloc_spec A (.text name) m with e | ⟨q, e, hq, hA'⟩
      · rw [e]; exact .inl rfl
      · rw [e, bind_ok]
        dsimp only
        rw [h5, bind_ok]
        exact koopsModulesLoop_spec A fuel (mods ++ [name]) sz ws' u' (ps ++ [q]) qs l m₀ _ ((hps.ext hA'.ext).snoc hq (set_eq _ _ _))
          (hqs.ext hA'.ext) ((hA.trans hA').perm (by rw [List.append_assoc])) h6 (by rw [hb]; exact hl)
    | none =>
      dsimp only at h2 hl ⊢
      by_cases hp : peek inp = '\n'
      swap
      · rw [if_neg hp] at h2 hl ⊢
        cases h2
        cases hl
        exact .inr ⟨ps, qs, m, rfl, hps, done, hA⟩
      rw [if_pos hp] at h2 hl ⊢
      obtain ⟨t, h3, h4⟩ := bind_ok_iff.1 h2
      clear h2
      rw [h3, Out.bind_ok] at hl
      rw [h3, bind_ok]
      obtain ⟨c, h5, h6⟩ := bind_ok_iff.1 h4
      clear h4
      rw [h5, Out.bind_ok] at hl
      rw [h5, bind_ok]
      cases c with
      | false =>
        cases h6
        cases hl
        exact .inr ⟨ps, qs, m, rfl, hps, done, hA⟩
      | true =>
      rw [if_neg (by simp)] at h6 hl ⊢
      by_cases hc : peek t ≠ ' ' ∧ ws = 0 ∧ mods ≠ []
      · have hc' : peek t ≠ ' ' ∧ ws = 0 ∧ (!mods.isEmpty) = true := ⟨hc.1, hc.2.1, by simpa using hc.2.2⟩
        rw [if_pos hc] at h6
        rw [if_pos hc'] at hl
        rw [if_pos ⟨hc.1, hc.2.1, hps.empty.2 hc.2.2⟩]
        obtain ⟨⟨o, v⟩, h7, h8⟩ := bind_ok_iff.1 h6
        clear h6
        rw [h7, Out.bind_ok] at hl
        rw [h7, bind_ok]
        cases o with
        | none =>
          cases h8
          cases hl
          exact .inr ⟨ps, qs, m, rfl, hps, done, hA⟩
        | some rest' =>
          dsimp only at h8 hl ⊢
          obtain ⟨⟨ws', v'⟩, h9, h10⟩ := bind_ok_iff.1 h8
          clear h8
          rw [h9, Out.bind_ok] at hl
          obtain ⟨l₂, h11, h12⟩ := bind_ok_iff.1 hl
          cases h12
          rcases alloc_spec A (.text rest') m with e | ⟨q, e, hq, hA1⟩
          · rw [e]; exact .inl rfl
          rw [e, bind_ok]
          dsimp only
          obtain ⟨ss, ps₀, old, p, rfl, rfl, hps0, hp0, hpm⟩ := hps.unsnoc hc.2.2
          rw [show (ps₀ ++ [p]).getLastD 0 = p by simp]
          have hm1 := hA1.ext p (by rw [hpm]; simp)
          rw [hm1, hpm]
          dsimp only
          rcases alloc_spec A (.text (old ++ rest')) (m.set q (some (.text rest'))) with e | ⟨w, e, hw, hA2⟩
          · rw [e]; exact .inl rfl
          rw [e, bind_ok]
          dsimp only
          have hm2 := hA2.ext p (by rw [hm1, hpm]; simp)
          generalize hM1 : m.set q (some (.text rest')) = m₁ at *
          generalize hM2 : m₁.set w (some (.text (old ++ rest'))) = m₂ at *
          rw [freeBlock_spec hp0 (by rw [hm2, hm1, hpm]; simp), bind_ok, h9, bind_ok]
          dsimp only
          have hperm : (qs ++ (ps₀ ++ [p]) ++ [q] ++ [w]).Perm (p :: ((qs ++ [q]) ++ (ps₀ ++ [w]))) := by
            have e1 : (qs ++ (ps₀ ++ [p]) ++ [q] ++ [w]) = (qs ++ ps₀) ++ (p :: ([q] ++ [w])) := by simp
            rw [e1]
            refine List.perm_middle.trans (List.Perm.cons p ?_)
            have e2 : (qs ++ [q]) ++ (ps₀ ++ [w]) = qs ++ (([q] ++ ps₀) ++ [w]) := by simp
            have e3 : (qs ++ ps₀) ++ ([q] ++ [w]) = qs ++ ((ps₀ ++ [q]) ++ [w]) := by simp
            rw [e2, e3]
            exact (List.perm_append_comm.append_right _).append_left _
          have hall := ((hA.trans hA1).trans hA2).perm hperm
          have hA' := adds_remove hall
          have hno := (List.nodup_cons.1 hall.nodup).1
          have keep : ∀ y ∈ (qs ++ [q]) ++ (ps₀ ++ [w]), erase m₂ [p] y = m₂ y :=
            fun y hy => if_neg (by simpa using fun e : y = p => hno (e ▸ hy))
          have hq' : m₂ q = some (.text rest') := by rw [hA2.ext q (by rw [← hM1, set_eq]; simp), ← hM1, set_eq]
          have hw' : m₂ w = some (.text (old ++ rest')) := by rw [← hM2, set_eq]
          have hx := koopsModulesLoop_spec A fuel (ss ++ [old ++ rest']) size ws' v' (ps₀ ++ [w]) (qs ++ [q]) (l ++ [rest']) m₀ (erase m₂ [p])
            (mods' := mods') (size' := size') (rest := rest) (l' := l₂)
            ((((hps0.ext hA1.ext).ext hA2.ext).snoc hw hw').congr fun y hy => keep y (by simp only [List.mem_append] at hy ⊢; exact .inr hy))
            ((((hqs.ext hA1.ext).ext hA2.ext).snoc hq hq').congr fun y hy => keep y (by simp only [List.mem_append] at hy ⊢; exact .inl hy))
            hA' (by simpa using h10) (by
              have hb : (!(ss ++ [old ++ rest']).isEmpty) = true := by cases ss <;> rfl
              rw [hb]; exact h11)
          rw [List.append_assoc] at hx
          simpa using hx
      · have hc' : ¬ (peek t ≠ ' ' ∧ ws = 0 ∧ (!mods.isEmpty) = true) := fun h => hc ⟨h.1, h.2.1, by simpa using h.2.2⟩
        rw [if_neg hc] at h6
        rw [if_neg hc'] at hl
        rw [if_neg fun h => hc ⟨h.1, h.2.1, hps.empty.1 h.2.2⟩]
        obtain ⟨⟨ws', v'⟩, h9, h10⟩ := bind_ok_iff.1 h6
        rw [h9, Out.bind_ok] at hl
        rw [h9, bind_ok]
        exact koopsModulesLoop_spec A fuel mods size ws' v' ps qs l m₀ m hps hqs hA h10 hl

theorem linkModules_spec (A : Allocator) : ∀ (mods : List Str) (ps : List Ptr) (m : Mem), AllTexts m mods ps →
    linkModules A ps m = .abort ∨
    ∃ q m' rs g, linkModules A ps m = .ok (q, m') ∧ Adds m m' rs ∧ Holds m' (moduleChain mods) true q g ∧ g.Perm (ps ++ rs)
  | [], _, m, h => by
    cases h
    rw [linkModules]
    rcases alloc_spec A (.record { kind := .module, texts := [0] }) m with e | ⟨q, e, hq, hA⟩
    · exact .inl e
    · refine .inr ⟨q, _, [q], [q], e, hA, ?_, .refl _⟩
      refine ⟨_, [], [], [], [], [], [], hq, set_eq _ _ _, rfl, rfl, rfl, .null .nil, ⟨rfl, rfl⟩, ⟨rfl, rfl⟩, ⟨rfl, rfl⟩, ⟨rfl, rfl⟩, ?_, rfl⟩
      rw [if_pos rfl]; exact ⟨rfl, rfl⟩
  | s :: l, _, m, h => by
    cases h with
    | @cons _ p _ ps hp hl =>
    rw [linkModules]
    rcases linkModules_spec A l ps m hl with e | ⟨q, m', rs, g, e, hA, hh, hg⟩
    · rw [e]; exact .inl rfl
    rw [e, bind_ok]
    dsimp only
    rcases alloc_spec A (.record { kind := .module, texts := [p], next := q }) m' with e | ⟨q2, e, hq2, hA2⟩
    · exact .inl e
    · refine .inr ⟨q2, _, rs ++ [q2], q2 :: ([p] ++ ([] ++ ([] ++ ([] ++ ([] ++ g))))), e, hA.trans hA2, ?_, ?_⟩
      · refine ⟨_, [p], [], [], [], [], g, hq2, set_eq _ _ _, rfl, rfl, rfl, .some hp.1 ?_ .nil, ⟨rfl, rfl⟩, ⟨rfl, rfl⟩, ⟨rfl, rfl⟩,
          ⟨rfl, rfl⟩, ?_, rfl⟩
        · have h1 := hA.ext p (by rw [hp.2]; simp)
          rw [hA2.ext p (by rw [h1, hp.2]; simp), h1, hp.2]
        · rw [if_pos rfl]; exact hh.ext hA2.ext
      · simp only [List.nil_append, List.cons_append]
        refine ((hg.cons p).cons q2).trans ?_
        have : ((p :: (ps ++ rs)) ++ [q2]).Perm (q2 :: (p :: (ps ++ rs))) := List.perm_append_comm
        simpa using this.symm

/-- The modules: with them, what is lost. -/
theorem koopsModules_spec (A : Allocator) {inp v} (m : Mem) (hv : Koops.parseModules inp = .ok v) :
    match (generalizing := false) v with
    | none => koopsModules A inp m = .ok (0, inp, m)
    | some (mods, rest) => mods.length ≤ inp.length + 1 ∧ ∃ l, Koops.brokenModules inp = .ok l ∧ (koopsModules A inp m = .abort ∨
        ∃ m₁ q m' g, koopsModules A inp m = .ok (q, rest, m') ∧ Leaves m l m₁ ∧ Adds m₁ m' g ∧ Holds m' (moduleChain mods) true q g) := by
  unfold koopsModules Koops.brokenModules
  unfold Koops.parseModules at hv
  obtain ⟨u, h1, h2⟩ := bind_ok_iff.1 hv
  have hr1 : u.length ≤ inp.length := by
    obtain ⟨u', e, h⟩ := Koops.rest_blanks inp
    rw [h1] at e; cases e
    exact h.len
  clear hv
  rw [h1, bind_ok, Out.bind_ok]
  by_cases hc : (skipString u c!"Modules linked in:").1 = 0
  · rw [if_pos hc] at h2 ⊢
    cases h2
    rfl
  rw [if_neg hc] at h2 ⊢
  obtain ⟨⟨ws, w⟩, h3, h4⟩ := bind_ok_iff.1 h2
  clear h2
  have hr2 : w.length ≤ inp.length := by
    obtain ⟨r, e, h⟩ := Koops.rest_span (skipString u c!"Modules linked in:").2 c!" \t"
    rw [h3] at e; cases e
    have := h.1.len
    have := (Koops.rest_string u c!"Modules linked in:").len
    dsimp only at *
    omega
  rw [h3, bind_ok, Out.bind_ok]
  dsimp only at h4 ⊢
  obtain ⟨⟨mods, sz, rest⟩, h5, h6⟩ := bind_ok_iff.1 h4
  clear h4
  dsimp only at h6
  split at h6
  swap
  · cases h6
  cases h6
  dsimp only
  obtain ⟨⟨l, hl⟩, hlen⟩ := modulesLoop_more _ _ _ _ _ h5
  refine ⟨by simp at hlen; omega, l, hl, ?_⟩
  rcases koopsModulesLoop_spec A _ [] 20 ws w [] [] [] m m .nil .nil (Adds.refl m) h5 hl with e | ⟨ps, qs, m₂, e, hps, hqs, hA⟩
  · rw [e]; exact .inl rfl
  rw [e, bind_ok]
  dsimp only
  rcases linkModules_spec A mods ps m₂ hps with e | ⟨q, m', rs, g, e, hA', hh, hg⟩
  · rw [e]; exact .inl rfl
  rw [e, bind_ok]
  obtain ⟨s1, s2⟩ := adds_split hA
  refine .inr ⟨erase m₂ ps, q, m', g, rfl, ⟨qs, qs, ?_, s1⟩, (s2.trans hA').perm hg.symm, hh⟩
  have hd := (List.nodup_append.1 hA.nodup).2.2
  exact (hqs.congr fun y hy => if_neg fun hy' => hd y hy y hy' rfl).texts

end Satyr.Heap
