import Verif.Gdb.Trace
import Verif.Gdb.LocModel
/-!
# C136: what the functions with locations read, and how they move the location
-/
namespace Satyr.Gdb
open Satyr.CStr Satyr.Normalize Satyr.Frames

/-! ## Two runs side by side -/

/-- Two runs end in the same way, and their results are related. -/
inductive Along {α β : Type} (R : α → β → Prop) : Out α → Out β → Prop
  | ok {a : α} {b : β} : R a b → Along R (.ok a) (.ok b)
  | abort : Along R .abort .abort
  | ub : Along R .ub .ub

theorem Along.bind {α β γ δ : Type} {R : α → β → Prop} {S : γ → δ → Prop} {x : Out α} {y : Out β} {f : α → Out γ} {g : β → Out δ}
    (h : Along R x y) (hf : ∀ a b, R a b → Along S (f a) (g b)) : Along S (x >>= f) (y >>= g) := by
  cases h with
  | ok h => exact hf _ _ h
  | abort => exact .abort
  | ub => exact .ub

theorem Along.same {α : Type} {P : α → Prop} {x : Out α} (h : Post x P) : Along (fun a b => a = b ∧ P a) x x := by
  cases x with
  | ok a => exact .ok ⟨rfl, h a rfl⟩
  | abort => exact .abort
  | ub => exact .ub

theorem Along.self {α : Type} (x : Out α) : Along (fun a b => a = b) x x := by
  cases x with
  | ok a => exact .ok rfl
  | abort => exact .abort
  | ub => exact .ub

theorem Along.mono {α β : Type} {R S : α → β → Prop} {x : Out α} {y : Out β} (h : Along R x y) (hr : ∀ a b, R a b → S a b) : Along S x y := by
  cases h with
  | ok h => exact .ok (hr _ _ h)
  | abort => exact .abort
  | ub => exact .ub

theorem Along.ite {α β : Type} {R : α → β → Prop} {p : Prop} [Decidable p] {x x' : Out α} {y y' : Out β} (h : p → Along R x y)
    (h' : ¬ p → Along R x' y') : Along R (if p then x else x') (if p then y else y') := by
  by_cases hp : p
  · rw [if_pos hp, if_pos hp]; exact h hp
  · rw [if_neg hp, if_neg hp]; exact h' hp

/-! ## How the location moves -/

/-- From `l` to `l'` over the text `d`: never to an earlier line, and by as many columns as there are characters if the text is on one
line. -/
def Moves (l : Loc) (d : Str) (l' : Loc) : Prop := l.line ≤ l'.line ∧ ('\n' ∉ d → l' = right l d.length)

theorem Moves.refl (l : Loc) : Moves l [] l := ⟨Int.le_refl _, fun _ => by simp [right]⟩

theorem Moves.trans {l m n : Loc} {a b : Str} (h1 : Moves l a m) (h2 : Moves m b n) : Moves l (a ++ b) n := by
  refine ⟨Int.le_trans h1.1 h2.1, fun h => ?_⟩
  rw [List.mem_append, not_or] at h
  rw [h2.2 h.2, h1.2 h.1]
  simp only [right, List.length_append, Loc.mk.injEq, true_and]
  push_cast
  omega

theorem Moves.right (l : Loc) (d : Str) : Moves l d (right l d.length) := ⟨Int.le_refl _, fun _ => rfl⟩

theorem over_eq {l : Loc} {s d t : Str} (h : s = d ++ t) : over l s t = Gdb.right l d.length := by
  unfold over
  rw [h, List.length_append]
  congr 1
  push_cast
  omega

theorem Moves.over {l : Loc} {s d t : Str} (h : s = d ++ t) : Moves l d (over l s t) := by
  rw [over_eq h]
  exact Moves.right l d

theorem Moves.eat (l : Loc) (c : Char) : Moves l [c] (l.eat c) := by
  unfold Loc.eat
  split
  · next h => exact ⟨by dsimp only; omega, fun hn => absurd (by simp [h]) hn⟩
  · exact ⟨Int.le_refl _, fun _ => by simp [Gdb.right]⟩

theorem Moves.inside {l m : Loc} {d : Str} (h : Moves Loc.init d m) : Moves l d (inside l m) := by
  obtain ⟨h1, h2⟩ := h
  have h3 : (1 : Int) ≤ m.line := h1
  unfold Gdb.inside Loc.add
  split
  · next hl =>
    refine ⟨by dsimp only; omega, fun hn => ?_⟩
    rw [h2 hn] at hl
    exact absurd hl (by simp [Gdb.right, Loc.init])
  · refine ⟨Int.le_refl _, fun hn => ?_⟩
    rw [h2 hn]
    simp [Gdb.right, Loc.init]

theorem Moves.space {s pre rest : Str} (l : Loc) (hn : NoNul s) (h : s = pre ++ rest) (hp : ∀ c ∈ pre, c ∈ c!" \n")
    (hr : ∀ c t, rest = c :: t → c ∉ c!" \n") : Moves l pre (spaceL s l) := by
  unfold spaceL
  rw [C28_strspn s c!" \n" hn pre rest h hp hr]
  refine Moves.inside (m := locOf pre) ⟨by simp [locOf, Loc.init], fun hn => ?_⟩
  unfold locOf
  rw [List.count_eq_zero.2 hn, List.takeWhile_eq_self_iff.2]
  · simp [Gdb.right, Loc.init]
  · intro c hc; simp; rintro rfl; exact hn (by simpa using hc)

/-- What is returned with a location is what is returned without; `rest` is where reading goes on in `s`. -/
def Kept {α : Type} (rest : α → Str) (s : Str) (l : Loc) (a : Option (α × Loc)) (b : Option α) : Prop :=
  a.map Prod.fst = b ∧ ∀ r l', a = some (r, l') → ∃ d, s = d ++ rest r ∧ Moves l d l'

theorem Kept.none {α : Type} {rest : α → Str} {s : Str} {l : Loc} : Kept rest s l none none := ⟨rfl, by rintro _ _ ⟨⟩⟩

theorem Kept.some {α : Type} {rest : α → Str} {s : Str} {l l' : Loc} {r : α} (d : Str) (h : s = d ++ rest r) (hm : Moves l d l') :
    Kept rest s l (some (r, l')) (some r) := ⟨rfl, by rintro _ _ ⟨⟩; exact ⟨d, h, hm⟩⟩

theorem Kept.cases {α : Type} {rest : α → Str} {s : Str} {l : Loc} {a : Option (α × Loc)} {b : Option α} (h : Kept rest s l a b) :
    (a = .none ∧ b = .none) ∨ ∃ r l' d, a = .some (r, l') ∧ b = .some r ∧ s = d ++ rest r ∧ Moves l d l' := by
  obtain ⟨h1, h2⟩ := h
  cases a with
  | none => exact .inl ⟨rfl, h1.symm⟩
  | some a =>
    obtain ⟨r, l'⟩ := a
    obtain ⟨d, h3, h4⟩ := h2 r l' rfl
    exact .inr ⟨r, l', d, rfl, h1.symm, h3, h4⟩

/-! ## Names -/

theorem constSuffixL_kept (space : Char) (s : Str) (l : Loc) :
    Along (Kept (fun r => r.2.1 :: r.2.2) (space :: s) l) (constSuffixL space s l) (constSuffix space s) := by
  unfold constSuffixL constSuffix
  refine Along.ite (fun _ => .ok (.some [] rfl (Moves.refl l))) fun h => ?_
  obtain ⟨b, hb, h2⟩ := skipString_pos _ _ h
  rcases skipString_cases s c!"const" with ⟨b', hb', hs⟩ | hs
  · rw [hs]
    rcases parseCharLimited_cases b' srSpace with ⟨c, t, rfl, hc, h⟩ | h
    · rw [h, Out.bind_ok]
      refine .ok (.some (space :: c!"const") (by rw [hb']; rfl) ?_)
      exact (Moves.eat l space).trans (b := c!"const") (Moves.right _ c!"const")
    · rw [h, Out.bind_ok]; exact .ok .none
  · rw [hs] at h; exact absurd rfl h

theorem secondPartL_kept (space : Char) (s : Str) (l : Loc) :
    Along (Kept (fun r => r.2.1 :: r.2.2) (space :: s) l) (secondPartL space s l) (secondPart space s) := by
  unfold secondPartL secondPart
  refine (Along.same (chunk_post false s)).bind fun o o' ho => ?_
  obtain ⟨rfl, ho⟩ := ho
  cases o with
  | none => exact .ok (.some [] rfl (Moves.refl l))
  | some r =>
    obtain ⟨x, t⟩ := r
    obtain ⟨h1, -⟩ := ho _ rfl
    refine (Along.same (nameParts_post _ t)).bind fun q q' hq => ?_
    obtain ⟨rfl, hq⟩ := hq
    rcases parseCharLimited_cases q.2 srSpace with ⟨c, u, hu, hc, h⟩ | h
    · rw [h, Out.bind_ok]
      have h2 : x ++ t = s := h1.1
      have h3 : q.1 ++ q.2 = t := hq.1
      refine .ok (.some (space :: (x ++ q.1)) ?_ ?_)
      · dsimp only
        rw [← hu, List.cons_append, List.append_assoc, h3, h2]
      · exact ((Moves.eat l space).trans (Moves.over h2.symm)).trans (b := q.1) (Moves.over h3.symm)
    · rw [h, Out.bind_ok]; exact .ok .none

theorem lastConstL_kept (space : Char) (s : Str) (l : Loc) :
    Along (Kept (fun r => r.2) (space :: s) l) (lastConstL space s l) (lastConst space s) := by
  unfold lastConstL lastConst
  refine Along.ite (fun _ => .ok (.some [] rfl (Moves.refl l))) fun h => ?_
  rcases skipString_cases s c!"const" with ⟨b, hb, hs⟩ | hs
  · rw [hs]
    refine (Along.self _).bind fun q q' hq => ?_
    subst hq
    refine .ok ?_
    split
    · exact .some (space :: c!"const") (by rw [hb]; rfl) ((Moves.eat l space).trans (b := c!"const") (Moves.right _ c!"const"))
    · exact .none
  · rw [hs] at h; exact absurd rfl h

theorem afterSpaceL_kept (buf0 : Str) (space : Char) (s : Str) (l : Loc) :
    Along (Kept (fun r => r.2) (space :: s) l) (afterSpaceL buf0 space s l) (afterSpace buf0 space s) := by
  unfold afterSpaceL afterSpace
  refine (constSuffixL_kept space s l).bind fun a b h => ?_
  rcases h.cases with ⟨rfl, rfl⟩ | ⟨⟨x, c, t⟩, l1, d1, rfl, rfl, h1, m1⟩
  · exact .ok .none
  refine (secondPartL_kept c t l1).bind fun a b h => ?_
  rcases h.cases with ⟨rfl, rfl⟩ | ⟨⟨y, c2, t2⟩, l2, d2, rfl, rfl, h2, m2⟩
  · exact .ok .none
  refine (lastConstL_kept c2 t2 l2).bind fun a b h => ?_
  rcases h.cases with ⟨rfl, rfl⟩ | ⟨⟨z, t3⟩, l3, d3, rfl, rfl, h3, m3⟩
  · exact .ok .none
  refine .ok (.some (d1 ++ d2 ++ d3) ?_ ((m1.trans m2).trans m3))
  dsimp only at h1 h2 h3 ⊢
  rw [h1, h2, h3]; simp

theorem functionNameL_kept (s : Str) (l : Loc) : Along (Kept (fun r => r.2) s l) (functionNameL s l) (functionName s) := by
  unfold functionNameL functionName
  rcases parseString_cases s c!"??" with ⟨b, hb, h⟩ | h
  · rw [h]
    exact .ok (.some c!"??" hb (Moves.right l c!"??"))
  · rw [h]
    refine (Along.same (nameStart_post s)).bind fun a a' ha => ?_
    obtain ⟨rfl, ha⟩ := ha
    cases a with
    | none => exact .ok .none
    | some a =>
      obtain ⟨x, t⟩ := a
      have h1 : x ++ t = s := (ha _ rfl).1
      refine (Along.same (nameParts_post _ t)).bind fun q q' hq => ?_
      obtain ⟨rfl, hq⟩ := hq
      have h3 : q.1 ++ q.2 = t := hq.1
      rcases parseCharLimited_cases q.2 srSpace with ⟨c, u, hu, hc, h⟩ | h
      · rw [h, Out.bind_ok]
        refine (afterSpaceL_kept (x ++ q.1) c u _).mono fun a b hk => ?_
        rcases hk.cases with ⟨rfl, rfl⟩ | ⟨r, l', d, rfl, rfl, h4, m⟩
        · exact .none
        · refine .some (x ++ q.1 ++ d) ?_ (((Moves.over h1.symm).trans (Moves.over h3.symm)).trans m)
          rw [List.append_assoc, List.append_assoc, ← h4, ← hu, h3, h1]
      · rw [h, Out.bind_ok]; exact .ok .none

/-! ## Calls -/

theorem argsLoopL_kept : ∀ (n d : Nat) (st e : Bool) (s : Str) (l : Loc),
    Along (fun a b => a.1 = b ∧ ∃ w, s = w ++ b.2.2.2 ∧ Moves l w a.2) (argsLoopL n d st e s l) (argsLoop n d st e s)
  | 0, _, _, _, s, _ => .ub
  | n + 1, d, st, e, s, l => by
    unfold argsLoopL argsLoop
    dsimp only
    cases argStep (peek s) (if (!e && startsWith s c!"(truncated)") = true then 0 else d)
        (if (!e && startsWith s c!"(truncated)") = true then false else st) e with
    | none => exact .ok ⟨rfl, [], rfl, Moves.refl l⟩
    | some r =>
      obtain ⟨d', st', e'⟩ := r
      cases s with
      | nil => exact .ub
      | cons c s =>
        show Along _ (Out.ok s >>= _) (Out.ok s >>= _)
        rw [Out.bind_ok, Out.bind_ok]
        refine Along.ite (fun _ => .ok ⟨rfl, [c], rfl, Moves.eat l c⟩) fun hp => ?_
        refine (argsLoopL_kept n d' st' e' s (l.eat c)).mono ?_
        rintro a b ⟨h1, w, h2, m⟩
        exact ⟨h1, c :: w, by rw [List.cons_append, ← h2], (Moves.eat l c).trans m⟩

theorem skipArgsL_kept (s : Str) (l : Loc) : Along (Kept (fun r => r) s l) (skipArgsL s l) (skipArgs s) := by
  unfold skipArgsL skipArgs
  by_cases h : peek s = '('
  · obtain ⟨u, rfl⟩ := peek_split h (by decide)
    rw [skipChar_cons (by decide), Out.bind_ok, Out.bind_ok]
    refine Along.ite (fun h => Bool.noConfusion h) fun _ => ?_
    refine (argsLoopL_kept _ _ _ _ u _).bind fun a b hab => ?_
    obtain ⟨rfl, w, hw, m⟩ := hab
    refine Along.ite (fun _ => .ok .none) fun _ => ?_
    by_cases h2 : peek a.1.2.2.2 = ')'
    · obtain ⟨v, hv⟩ := peek_split h2 (by decide)
      rw [hv, skipChar_cons (by decide), Out.bind_ok, Out.bind_ok]
      refine .ok (.some (c!"(" ++ w ++ c!")") (by rw [hw, hv]; simp) ?_)
      exact ((Moves.right l c!"(").trans m).trans (Moves.right _ c!")")
    · rw [skipChar_not (by decide) h2, Out.bind_ok, Out.bind_ok]
      exact .ok .none
  · rw [skipChar_not (by decide) h, Out.bind_ok, Out.bind_ok]
    exact .ok .none

theorem NoNul.suffix {a b : Str} (h : NoNul (a ++ b)) : NoNul b := fun hb => h (List.mem_append_right _ hb)

theorem functionCallL_kept {s : Str} (hn : NoNul s) (l : Loc) : Along (Kept (fun r => r.2) s l) (functionCallL s l) (functionCall s) := by
  unfold functionCallL functionCall
  refine (functionNameL_kept s l).bind fun a b h => ?_
  rcases h.cases with ⟨rfl, rfl⟩ | ⟨⟨nt, t⟩, l1, d1, rfl, rfl, h1, m1⟩
  · exact .ok .none
  obtain ⟨pre, rest, h2, h3, h4, h5, -⟩ := C27_span t c!" \n"
  dsimp only
  rw [h5, Out.bind_ok, Out.bind_ok]
  refine Along.ite (fun _ => .ok .none) fun h0 => ?_
  refine (skipArgsL_kept rest _).bind fun a b h => ?_
  have m2 : Moves l1 pre (spaceL t l1) := Moves.space l1 (NoNul.suffix (by rw [h1] at hn; exact hn)) h2 h3 h4
  rcases h.cases with ⟨rfl, rfl⟩ | ⟨u, l2, d2, rfl, rfl, h6, m3⟩
  · exact .ok .none
  · refine .ok (.some (d1 ++ pre ++ d2) ?_ ((m1.trans m2).trans m3))
    dsimp only at h1 h6 ⊢
    rw [h1, h2, h6]; simp

theorem addressInFunctionL_kept {s : Str} (hn : NoNul s) (l : Loc) :
    Along (fun a b => a.1 = b.1 ∧ Kept (fun r => r.2) s l a.2 b.2) (addressInFunctionL s l) (addressInFunction s) := by
  unfold addressInFunctionL addressInFunction
  rcases hex0x_cases s with ⟨ds, t, hs, hne, hd, h⟩ | h
  · rw [h, Out.bind_ok, Out.bind_ok]
    refine Along.ite (fun h => absurd h (by dsimp only; omega)) fun _ => ?_
    dsimp only
    refine (Along.same (afterAddress_yields t).post).bind fun b b' hb => ?_
    obtain ⟨rfl, hb⟩ := hb
    cases b with
    | none => exact .ok ⟨rfl, .none⟩
    | some u =>
      obtain ⟨a, ha⟩ := hb u rfl
      have hs' : s = (c!"0x" ++ ds ++ a) ++ u := by rw [hs, ha]; simp
      dsimp only
      refine (functionCallL_kept (s := u) (NoNul.suffix (by rw [hs'] at hn; exact hn)) _).bind fun a' b hk => .ok ⟨rfl, ?_⟩
      dsimp only
      rcases hk.cases with ⟨rfl, rfl⟩ | ⟨r, l2, d2, rfl, rfl, h6, m3⟩
      · exact .none
      · refine .some (c!"0x" ++ ds ++ a ++ d2) (by rw [hs', h6]; simp) ?_
        refine Moves.trans (Moves.trans ?_ (Moves.over ha)) m3
        rw [show (2 + ds.length) = (c!"0x" ++ ds).length by rw [List.length_append]; rfl]
        exact Moves.right l _
  · rw [h, Out.bind_ok, Out.bind_ok]
    refine Along.ite (fun _ => ?_) fun h => absurd rfl h
    exact (functionCallL_kept hn l).bind fun a b hk => .ok ⟨rfl, hk⟩

theorem fileLocationL_kept {s : Str} (hn : NoNul s) (l : Loc) :
    Along (Kept (fun r => r.2.2) s l) (fileLocationL s l) (fileLocation s) := by
  unfold fileLocationL fileLocation
  obtain ⟨pre, rest, h2, h3, h4, h5, -⟩ := C27_span s c!" \n"
  rw [h5, Out.bind_ok, Out.bind_ok]
  refine Along.ite (fun _ => .ok .none) fun h0 => ?_
  refine (Along.same (fileKeyword_yields rest).post).bind fun k k' hk => ?_
  obtain ⟨rfl, hk⟩ := hk
  cases k with
  | none => exact .ok .none
  | some u =>
    obtain ⟨a, ha⟩ := hk u rfl
    obtain ⟨name, v, e2, e3, e4, -, e5⟩ := C27_span u fileChars
    dsimp only
    rw [e5, Out.bind_ok, Out.bind_ok]
    dsimp only
    by_cases hn' : name = []
    · rw [if_pos hn']; exact .ok .none
    · rw [if_neg hn']
      dsimp only
      refine (Along.same (fileLine_yields v).post).bind fun k k' hk => ?_
      obtain ⟨rfl, hk⟩ := hk
      cases k with
      | none => exact .ok .none
      | some k =>
        obtain ⟨line, t⟩ := k
        obtain ⟨b, hb⟩ : ∃ b, v = b ++ t := by
          rcases hk _ rfl with h | ⟨ds, h, -⟩
          · cases h; exact ⟨[], rfl⟩
          · exact ⟨':' :: ds, h⟩
        refine .ok (.some (pre ++ a ++ name ++ b) (by dsimp only; rw [h2, ha, e2, hb]; simp) ?_)
        exact (((Moves.space l hn h2 h3 h4).trans (Moves.over ha)).trans (Moves.over e2)).trans (Moves.over hb)

end Satyr.Gdb
