import Verif.Text.Ruby
import Verif.CStr.Exact
/-!
# Exactly which texts are read as Ruby frames and backtraces (C53)
-/
namespace Satyr.Text.Ruby
open Satyr.CStr Satyr.Frames

/-! ## Specification -/

/-- The levels of `rescue`. -/
def RescueText (s : Str) (n : Nat) (t : Str) : Prop :=
  s = (List.replicate n c!"rescue in ").flatten ++ t ∧ ¬ ∃ u, t = c!"rescue in " ++ u

/-- The levels of blocks. -/
inductive BlockText : Str → Nat → Str → Prop
  | one (t : Str) : BlockText (c!"block in " ++ t) 1 t
  | many (digits : Str) (n : Nat) (t : Str) : Number digits n → BlockText (c!"block (" ++ digits ++ c!" levels) in " ++ t) n t
  | none (t : Str) : (¬ ∃ u, t = c!"block in " ++ u) → (¬ ∃ u, t = c!"block (" ++ u) → BlockText t 0 t

/-- The name of the function up to the quote: special names are in angle brackets. -/
def NameText (s : Str) (special : Bool) (name t : Str) : Prop :=
  name ≠ [] ∧ '\'' ∉ name ∧ '>' ∉ name ∧
  ((special = true ∧ s = '<' :: name ++ c!">'" ++ t) ∨ (special = false ∧ peek s ≠ '<' ∧ s = name ++ c!"'" ++ t))

/-- `s` begins with the frame `f` and continues with `t`. -/
def FrameText (s : Str) (f : RubyFrame) (t : Str) : Prop :=
  ∃ file digits line s1 rescue s2 block s3 special name,
    s = file ++ c!":" ++ digits ++ c!":in `" ++ s1 ∧ '`' ∉ file ∧ Number digits line ∧
    RescueText s1 rescue s2 ∧ BlockText s2 block s3 ∧ NameText s3 special name t ∧
    f = ⟨some (anonymizePath file), line, special, some name, block, rescue⟩

/-- The end of the text. -/
def Ended (s : Str) : Prop := peek s = '\x00'

/-- The lines after the first one; every line ends with a newline, which may be missing at the end of the text. -/
inductive Lines : Str → List RubyFrame → Str → Prop
  | done (s : Str) : Ended s → Lines s [] s
  | more (s u t : Str) (f : RubyFrame) (fs : List RubyFrame) : FrameText s f ('\n' :: u) → Lines u fs t →
      Lines (c!"\tfrom " ++ s) (f :: fs) t
  | last (s t : Str) (f : RubyFrame) : FrameText s f t → Ended t → Lines (c!"\tfrom " ++ s) [f] t

/-! ## Proofs -/

theorem fileAndLine_iff {l a : Str} {line : Nat} : fileAndLine l = .ok (some (a, line)) ↔
    ∃ file digits, l = file ++ c!":" ++ digits ++ c!":in " ∧ Number digits line ∧ a = anonymizePath file := by
  unfold fileAndLine
  constructor
  · intro h
    split at h
    · cases h
    · next h0 =>
      rw [not_or, ne_eq, not_not, Nat.not_lt] at h0
      obtain ⟨h1, h2⟩ := h0
      have hl := List.take_append_drop (l.length - 4) l
      rw [h2] at hl
      generalize l.take (l.length - 4) = q at h hl
      subst hl
      obtain ⟨pre, ds, rfl, hd, hp⟩ := digits_end q
      have hb := backDigits_read pre ds [] hp hd
      rw [List.append_nil] at hb
      dsimp only at h
      rw [List.length_append, hb, Out.bind_ok, List.drop_left] at h
      obtain ⟨⟨n, o, r⟩, hn⟩ := parseUint32_fine ds
      rw [hn, Out.bind_ok] at h
      cases o with
      | none => cases h
      | some v =>
        dsimp only at h
        obtain ⟨d, rfl, hN, -, hr⟩ := parseUint32_iff.1 hn
        have hr' : r = [] := by
          cases r with
          | nil => rfl
          | cons c r =>
            have h3 := hd c (by simp)
            have h4 : IsDec c = false := hr
            rw [h3] at h4
            cases h4
        subst hr'
        split at h
        · cases h
        · next h5 =>
          rcases hp with rfl | ⟨b, c, rfl, hc⟩
          · exact absurd rfl h5
          · have e1 : (b ++ [c]).length - 1 = b.length := by len
            have e2 : b ++ [c] ++ (d ++ []) = b ++ c :: d := by simp
            rw [e1, e2, rd_mid b c d rfl, Out.bind_ok, List.take_left] at h
            split at h
            · cases h
            · next h6 =>
              rw [ne_eq, not_not] at h6
              injection h with h
              simp only [Option.some.injEq, Prod.mk.injEq] at h
              obtain ⟨rfl, rfl⟩ := h
              exact ⟨b, d, by simp [h6], hN, rfl⟩
  · rintro ⟨file, d, rfl, hN, rfl⟩
    have hl : (file ++ c!":" ++ d ++ c!":in ").length - 4 = (file ++ c!":" ++ d).length := by len
    rw [hl, List.drop_left, List.take_left, if_neg (by
      rintro (h | h)
      · revert h; len
      · exact h rfl)]
    have hb := backDigits_read (file ++ c!":") d [] (.inr ⟨file, ':', rfl, by decide⟩) hN.digits
    rw [List.append_nil] at hb
    dsimp only
    rw [List.length_append, hb, Out.bind_ok, List.drop_left, parseUint32_iff.2 ⟨d, (List.append_nil d).symm, hN, rfl, rfl⟩, Out.bind_ok]
    dsimp only
    have e1 : (file ++ c!":").length - 1 = file.length := by len
    have e2 : file ++ c!":" ++ d = file ++ ':' :: d := by simp
    rw [if_neg (by len), e1, e2, rd_mid file ':' d rfl, Out.bind_ok, List.take_left, if_neg (by simp)]

theorem rescues_iff : ∀ (fuel : Nat) (s : Str) (k n : Nat) (t : Str), s.length < fuel →
    (rescues fuel s k = (n, t) ↔ ∃ m, n = k + m ∧ RescueText s m t) := by
  intro fuel
  induction fuel with
  | zero => intro s k n t h; omega
  | succ fuel ih =>
    intro s k n t hl
    rw [rescues]
    by_cases hb : ∃ u, s = c!"rescue in " ++ u
    · obtain ⟨u, rfl⟩ := hb
      rw [skipString_append]
      dsimp only
      rw [if_neg (by decide), ih u (k + 1) n t (by simp at hl; omega)]
      constructor
      · rintro ⟨m, rfl, rfl, h⟩
        exact ⟨m + 1, by omega, by rw [List.replicate_succ, List.flatten_cons, List.append_assoc], h⟩
      · rintro ⟨m, rfl, h1, h2⟩
        cases m with
        | zero =>
          exact absurd ⟨u, by rw [h1]; simp⟩ h2
        | succ m =>
          rw [List.replicate_succ, List.flatten_cons, List.append_assoc] at h1
          exact ⟨m, by omega, List.append_cancel_left h1, h2⟩
    · rw [skipString_fail hb]
      dsimp only
      rw [if_pos rfl]
      constructor
      · intro h
        rw [Prod.mk.injEq] at h
        obtain ⟨rfl, rfl⟩ := h
        exact ⟨0, rfl, by simp, hb⟩
      · rintro ⟨m, rfl, h1, h2⟩
        cases m with
        | zero => rw [h1]; simp
        | succ m =>
          rw [List.replicate_succ, List.flatten_cons, List.append_assoc] at h1
          exact absurd ⟨_, h1⟩ hb

theorem blocks_iff {s t : Str} {n : Nat} : blocks s = .ok (some (n, t)) ↔ BlockText s n t := by
  unfold blocks
  constructor
  · intro h
    by_cases hb : ∃ u, s = c!"block in " ++ u
    · obtain ⟨u, rfl⟩ := hb
      rw [skipString_append] at h
      dsimp only at h
      rw [if_pos (by decide)] at h
      injection h with h
      simp only [Option.some.injEq, Prod.mk.injEq] at h
      obtain ⟨rfl, rfl⟩ := h
      exact .one _
    · rw [skipString_fail hb] at h
      dsimp only at h
      rw [if_neg (by decide)] at h
      by_cases hc : ∃ u, s = c!"block (" ++ u
      · obtain ⟨u, rfl⟩ := hc
        rw [skipString_append] at h
        dsimp only at h
        rw [if_neg (by decide)] at h
        obtain ⟨⟨k, o, r⟩, hn⟩ := parseUint32_fine u
        rw [hn, Out.bind_ok] at h
        cases o with
        | none => cases h
        | some v =>
          dsimp only at h
          obtain ⟨d, rfl, hN, -, -⟩ := parseUint32_iff.1 hn
          by_cases hd : ∃ u, r = c!" levels) in " ++ u
          · obtain ⟨u, rfl⟩ := hd
            rw [skipString_append] at h
            dsimp only at h
            rw [if_neg (by decide)] at h
            injection h with h
            simp only [Option.some.injEq, Prod.mk.injEq] at h
            obtain ⟨rfl, rfl⟩ := h
            have := BlockText.many d v u hN
            simpa using this
          · rw [skipString_fail hd] at h
            cases h
      · rw [skipString_fail hc] at h
        dsimp only at h
        rw [if_pos rfl] at h
        injection h with h
        simp only [Option.some.injEq, Prod.mk.injEq] at h
        obtain ⟨rfl, rfl⟩ := h
        exact .none _ hb hc
  · intro h
    cases h with
    | one t =>
      rw [skipString_append]
      rfl
    | many d n t hN =>
      rw [List.append_assoc, List.append_assoc, skipString_fail (by rintro ⟨u, h⟩; simp at h), skipString_append]
      dsimp only
      rw [if_neg (by decide), if_neg (by decide), parseUint32_iff.2 ⟨d, rfl, hN, rfl, rfl⟩, Out.bind_ok]
      dsimp only
      rw [skipString_append]
      rfl
    | none _ h1 h2 =>
      rw [skipString_fail h1, skipString_fail h2]
      rfl

theorem functionName_iff {s t name : Str} {special : Bool} : functionName s = .ok (some (special, name, t)) ↔ NameText s special name t := by
  have hs : ∀ x : Str, (∀ c ∈ x, c ∉ c!"'>") ↔ '\'' ∉ x ∧ '>' ∉ x := by
    intro x
    constructor
    · intro h
      exact ⟨fun hc => h _ hc (by simp), fun hc => h _ hc (by simp)⟩
    · rintro ⟨h1, h2⟩ c hc hm
      simp only [List.mem_cons, List.not_mem_nil, or_false] at hm
      rcases hm with rfl | rfl
      · exact h1 hc
      · exact h2 hc
  unfold functionName
  constructor
  · intro h
    obtain ⟨⟨sp, s1⟩, h1, h⟩ := bind_ok_iff.1 h
    dsimp only at h
    obtain ⟨⟨o, s2⟩, h2, h⟩ := bind_ok_iff.1 h
    cases o with
    | none => cases h
    | some x =>
      dsimp only at h
      obtain ⟨⟨b, s3⟩, h3, h⟩ := bind_ok_iff.1 h
      dsimp only at h
      cases b with
      | false => cases h
      | true =>
        rw [if_neg (by simp)] at h
        obtain ⟨⟨b, s4⟩, h4, h⟩ := bind_ok_iff.1 h
        dsimp only at h
        cases b with
        | false => cases h
        | true =>
          rw [if_neg (by simp)] at h
          injection h with h
          simp only [Option.some.injEq, Prod.mk.injEq] at h
          obtain ⟨rfl, rfl, rfl⟩ := h
          obtain ⟨rfl, hx, hc, -⟩ := parseCspan_iff.1 h2
          have h4 := (skipChar_iff (by decide)).1 h4
          subst h4
          refine ⟨hx, ((hs _).1 hc).1, ((hs _).1 hc).2, ?_⟩
          cases sp with
          | true =>
            have h1 := (skipChar_iff (by decide)).1 h1
            have h3 := (skipChar_iff (by decide)).1 h3
            exact .inl ⟨rfl, by rw [h1, h3]; simp⟩
          | false =>
            obtain ⟨rfl, h1⟩ := (skipChar_false (by decide)).1 h1
            have h3 : Out.ok (true, s2) = .ok (true, '\'' :: s4) := h3
            injection h3 with h3
            rw [Prod.mk.injEq] at h3
            exact .inr ⟨rfl, h1, by rw [h3.2]; simp⟩
  · rintro ⟨h1, h2, h3, ⟨rfl, rfl⟩ | ⟨rfl, h4, rfl⟩⟩
    · have e : '<' :: name ++ c!">'" ++ t = '<' :: (name ++ ('>' :: '\'' :: t)) := by simp
      rw [e, skipChar_cons (by decide), Out.bind_ok]
      dsimp only
      rw [parseCspan_iff.2 ⟨rfl, h1, (hs _).2 ⟨h2, h3⟩, .inr (by simp)⟩, Out.bind_ok]
      dsimp only
      have : closeSpecial true ('>' :: '\'' :: t) = .ok (true, '\'' :: t) := skipChar_cons (c := '>') (by decide) _
      rw [this, Out.bind_ok]
      dsimp only
      rw [if_neg (by simp), skipChar_cons (by decide), Out.bind_ok]
      rfl
    · rw [skipChar_not (by decide) h4, Out.bind_ok]
      dsimp only
      rw [List.append_assoc, parseCspan_iff.2 ⟨rfl, h1, (hs _).2 ⟨h2, h3⟩, .inr (by simp)⟩, Out.bind_ok]
      dsimp only
      have : closeSpecial false (c!"'" ++ t) = .ok (true, '\'' :: t) := rfl
      rw [this, Out.bind_ok]
      dsimp only
      rw [if_neg (by simp), skipChar_cons (by decide), Out.bind_ok]
      rfl

/-- **C53.** A frame is read exactly from the texts that begin with it. -/
theorem C53_exact_frame (s : Str) (f : RubyFrame) (t : Str) : parseFrame s = .ok (some (f, t)) ↔ FrameText s f t := by
  unfold parseFrame FrameText
  constructor
  · intro h
    obtain ⟨⟨o, s1⟩, h1, h⟩ := bind_ok_iff.1 h
    cases o with
    | none => cases h
    | some l =>
      dsimp only at h
      obtain ⟨o, h2, h⟩ := bind_ok_iff.1 h
      cases o with
      | none => cases h
      | some x =>
        obtain ⟨a, line⟩ := x
        dsimp only at h
        obtain ⟨⟨b, s2⟩, h3, h⟩ := bind_ok_iff.1 h
        dsimp only at h
        cases b with
        | false => cases h
        | true =>
          rw [if_neg (by simp)] at h
          have h3 := (skipChar_iff (by decide)).1 h3
          obtain ⟨⟨rescue, s2'⟩, hrs⟩ : ∃ p, rescues (s2.length + 1) s2 0 = p := ⟨_, rfl⟩
          rw [hrs] at h
          dsimp only at h
          obtain ⟨o, h4, h⟩ := bind_ok_iff.1 h
          cases o with
          | none => cases h
          | some x =>
            obtain ⟨block, s3⟩ := x
            dsimp only at h
            obtain ⟨o, h5, h⟩ := bind_ok_iff.1 h
            cases o with
            | none => cases h
            | some x =>
              obtain ⟨special, name, s4⟩ := x
              dsimp only at h
              injection h with h
              simp only [Option.some.injEq, Prod.mk.injEq] at h
              obtain ⟨rfl, rfl⟩ := h
              subst h3
              obtain ⟨rfl, -, hb, -⟩ := parseCspan_iff.1 h1
              obtain ⟨file, d, rfl, hN, rfl⟩ := fileAndLine_iff.1 h2
              obtain ⟨m, hm, hr⟩ := (rescues_iff (s2.length + 1) s2 0 rescue s2' (by omega)).1 hrs
              refine ⟨file, d, line, s2, rescue, s2', block, s3, special, name,
                by simp, fun hc => notin hb (by simp [hc]), hN, ?_, blocks_iff.1 h4, functionName_iff.1 h5, rfl⟩
              rw [Nat.zero_add] at hm
              rw [hm]
              exact hr
  · rintro ⟨file, d, line, s1, rescue, s2, block, s3, special, name, rfl, hf, hN, hr, hb, hn, rfl⟩
    have hg : '`' ∉ file ++ c!":" ++ d ++ c!":in " := by
      intro hc
      simp only [List.mem_append] at hc
      rcases hc with ((hc | hc) | hc) | hc
      · exact hf hc
      · revert hc; decide
      · have := hN.digits _ hc; revert this; decide
      · revert hc; decide
    have e : file ++ c!":" ++ d ++ c!":in `" ++ s1 = (file ++ c!":" ++ d ++ c!":in ") ++ '`' :: s1 := by simp
    rw [e, parseCspan_iff.2 ⟨rfl, by simp, notin' hg, .inr (by simp)⟩, Out.bind_ok]
    dsimp only
    rw [fileAndLine_iff.2 ⟨file, d, rfl, hN, rfl⟩, Out.bind_ok]
    dsimp only
    rw [skipChar_cons (by decide), Out.bind_ok]
    dsimp only
    rw [if_neg (by simp), (rescues_iff (s1.length + 1) s1 0 rescue s2 (by omega)).2 ⟨rescue, by simp, hr⟩]
    dsimp only
    rw [blocks_iff.2 hb, Out.bind_ok]
    dsimp only
    rw [functionName_iff.2 hn, Out.bind_ok]

theorem framesLoop_iff : ∀ (fuel : Nat) (s : Str) (acc r : List RubyFrame) (t : Str), s.length < fuel →
    (framesLoop fuel s acc = .ok (some (r, t)) ↔ ∃ fs, Lines s fs t ∧ r = acc ++ fs) := by
  intro fuel
  induction fuel with
  | zero => intro s acc r t h; omega
  | succ n ih =>
    intro s acc r t hl
    rw [framesLoop]
    by_cases h0 : peek s = '\x00'
    · rw [if_pos h0]
      constructor
      · intro h
        injection h with h
        simp only [Option.some.injEq, Prod.mk.injEq] at h
        obtain ⟨rfl, rfl⟩ := h
        exact ⟨[], .done s h0, by simp⟩
      · rintro ⟨fs, hf, rfl⟩
        cases hf with
        | done => simp
        | more => exact absurd (show '\t' = '\x00' from h0) (by decide)
        | last => exact absurd (show '\t' = '\x00' from h0) (by decide)
    · rw [if_neg h0]
      by_cases hb : ∃ u, s = c!"\tfrom " ++ u
      swap
      · rw [skipString_fail hb]
        dsimp only
        rw [if_pos rfl]
        constructor
        · intro h; cases h
        · rintro ⟨fs, hf, rfl⟩
          cases hf with
          | done _ h => exact absurd h h0
          | more => exact absurd ⟨_, rfl⟩ hb
          | last => exact absurd ⟨_, rfl⟩ hb
      obtain ⟨u, rfl⟩ := hb
      rw [skipString_append]
      dsimp only
      rw [if_neg (by decide)]
      obtain ⟨o, ho, hlt⟩ := parseFrame_yields u
      rw [ho, Out.bind_ok]
      have hul : (c!"\tfrom " ++ u).length = u.length + 6 := by len
      cases o with
      | none =>
        dsimp only
        constructor
        · intro h; cases h
        · rintro ⟨fs, hf, rfl⟩
          have key : ∀ f v, ¬ FrameText u f v := by
            intro f v hv
            rw [(C53_exact_frame _ _ _).2 hv] at ho
            injection ho with ho
            cases ho
          generalize hs : c!"\tfrom " ++ u = s at hf
          cases hf with
          | done _ h => rw [hs] at h0; exact absurd h h0
          | more s' _ _ _ _ h => rw [List.append_cancel_left hs] at key; exact absurd h (key _ _)
          | last s' _ _ h => rw [List.append_cancel_left hs] at key; exact absurd h (key _ _)
      | some x =>
        obtain ⟨f, v⟩ := x
        have hlt := hlt _ rfl
        dsimp only at hlt ⊢
        have hf0 := (C53_exact_frame _ _ _).1 ho
        have uniq : ∀ f' v', FrameText u f' v' → f' = f ∧ v' = v := by
          intro f' v' h
          have := (C53_exact_frame _ _ _).2 h
          rw [ho] at this
          injection this with this
          simp only [Option.some.injEq, Prod.mk.injEq] at this
          exact ⟨this.1.symm, this.2.symm⟩
        by_cases hp : peek v = '\n'
        · cases v with
          | nil => exact absurd hp (by decide)
          | cons c v =>
            have : c = '\n' := hp
            subst this
            rw [skipChar_cons (by decide), Out.bind_ok]
            dsimp only
            rw [if_neg (by simp), ih v _ r t (by simp at hlt; omega)]
            constructor
            · rintro ⟨fs, h1, rfl⟩
              exact ⟨f :: fs, .more u v t f fs hf0 h1, by simp⟩
            · rintro ⟨fs, hf, rfl⟩
              generalize hs : c!"\tfrom " ++ u = s at hf
              cases hf with
              | done _ h => rw [hs] at h0; exact absurd h h0
              | more s' u' _ f' fs' h h' =>
                rw [List.append_cancel_left hs] at uniq
                obtain ⟨rfl, e⟩ := uniq _ _ h
                simp only [List.cons.injEq, true_and] at e
                subst e
                exact ⟨fs', h', by simp⟩
              | last s' _ f' h h' =>
                rw [List.append_cancel_left hs] at uniq
                obtain ⟨rfl, rfl⟩ := uniq _ _ h
                exact absurd (show '\n' = '\x00' from h') (by decide)
        · rw [skipChar_not (by decide) hp, Out.bind_ok]
          dsimp only
          by_cases hz : peek v = '\x00'
          · rw [if_neg (by simp [hz]), ih v _ r t (by omega)]
            constructor
            · rintro ⟨fs, h1, rfl⟩
              cases h1 with
              | done => exact ⟨[f], .last u _ f hf0 hz, by simp⟩
              | more => exact absurd (show '\t' = '\x00' from hz) (by decide)
              | last => exact absurd (show '\t' = '\x00' from hz) (by decide)
            · rintro ⟨fs, hf, rfl⟩
              generalize hs : c!"\tfrom " ++ u = s at hf
              cases hf with
              | done _ h => rw [hs] at h0; exact absurd h h0
              | more s' u' _ f' fs' h h' =>
                rw [List.append_cancel_left hs] at uniq
                obtain ⟨rfl, rfl⟩ := uniq _ _ h
                exact absurd (show '\n' = '\x00' from hz) (by decide)
              | last s' _ f' h h' =>
                rw [List.append_cancel_left hs] at uniq
                obtain ⟨rfl, rfl⟩ := uniq _ _ h
                exact ⟨[], .done _ hz, by simp⟩
          · rw [if_pos ⟨rfl, hz⟩]
            constructor
            · intro h; cases h
            · rintro ⟨fs, hf, rfl⟩
              generalize hs : c!"\tfrom " ++ u = s at hf
              cases hf with
              | done _ h => rw [hs] at h0; exact absurd h h0
              | more s' u' _ f' fs' h h' =>
                rw [List.append_cancel_left hs] at uniq
                obtain ⟨rfl, rfl⟩ := uniq _ _ h
                exact absurd rfl hp
              | last s' _ f' h h' =>
                rw [List.append_cancel_left hs] at uniq
                obtain ⟨rfl, rfl⟩ := uniq _ _ h
                exact absurd h' hz

theorem exceptionClass_iff {m cls : Str} : exceptionClass m = .ok (some cls) ↔
    ∃ message, m = message ++ c!"(" ++ cls ++ c!")\n" ∧ cls ≠ [] ∧ '(' ∉ cls := by
  unfold exceptionClass
  constructor
  · intro h
    split at h
    · cases h
    · next h0 =>
      rw [not_or, ne_eq, not_not, Nat.not_lt] at h0
      obtain ⟨-, h2⟩ := h0
      have hl := List.take_append_drop (m.length - 2) m
      rw [h2] at hl
      generalize m.take (m.length - 2) = q at h hl
      subst hl
      dsimp only at h
      obtain ⟨p, hp, h⟩ := bind_ok_iff.1 h
      by_cases hq : '(' ∈ q
      · obtain ⟨a, b, rfl, hb⟩ := last_occurrence '(' q hq
        have hr := backParen_read a b hb []
        rw [List.append_nil, show a.length + 1 + b.length = (a ++ '(' :: b).length by len, hp] at hr
        injection hr with hr
        subst hr
        have e : (a ++ '(' :: b).drop (a.length + 1) = b := by
          rw [show a ++ '(' :: b = (a ++ ['(']) ++ b by simp, show a.length + 1 = (a ++ ['(']).length by len, List.drop_left]
        rw [e] at h
        split at h
        · cases h
        · next hne =>
          rw [if_neg (by omega), Nat.add_sub_cancel, rd_mid a '(' b rfl, Out.bind_ok, if_neg (by simp)] at h
          injection h with h
          injection h with h
          subst h
          exact ⟨a, by simp, by simpa using hne, hb⟩
      · have key : ∀ k, k ≤ q.length → backParen q k = .ok 0 := by
          intro k
          induction k with
          | zero => intro _; rfl
          | succ k ih =>
            intro hk
            rw [backParen, rd_ok (by omega)]
            show (if peek (q.drop k) ≠ '(' then _ else _) = _
            rw [if_pos, ih (by omega)]
            intro hc
            cases hd : q.drop k with
            | nil => rw [hd] at hc; exact absurd hc (by decide)
            | cons c u =>
              rw [hd] at hc
              have : c = '(' := hc
              subst this
              exact hq (List.mem_of_mem_drop (by rw [hd]; simp))
        rw [key _ (Nat.le_refl _)] at hp
        injection hp with hp
        subst hp
        split at h
        · cases h
        · rw [if_pos rfl] at h; cases h
  · rintro ⟨message, rfl, h1, h2⟩
    have hl : (message ++ c!"(" ++ cls ++ c!")\n").length - 2 = (message ++ c!"(" ++ cls).length := by len
    rw [hl, List.drop_left, List.take_left, if_neg (by
      rintro (h | h)
      · revert h; len
      · exact h rfl)]
    have hr := backParen_read message cls h2 []
    have e : message ++ '(' :: (cls ++ []) = message ++ c!"(" ++ cls := by simp
    rw [e, show message.length + 1 + cls.length = (message ++ c!"(" ++ cls).length by len] at hr
    dsimp only
    rw [hr, Out.bind_ok]
    have ed : (message ++ c!"(" ++ cls).drop (message.length + 1) = cls := by
      rw [show message.length + 1 = (message ++ c!"(").length by len, List.drop_left]
    rw [ed, if_neg (by simpa using h1), if_neg (by omega), Nat.add_sub_cancel,
      show message ++ c!"(" ++ cls = message ++ '(' :: cls by simp, rd_mid message '(' cls rfl, Out.bind_ok, if_neg (by simp)]

/-- **C53.** Exactly these texts are read as backtraces, with this result: the first frame, a colon and a blank, the message with
the class in parentheses at its end, and the lines of the other frames up to the end of the text. -/
theorem C53_exact (inp : Str) (tr : RubyTrace) (rest : Str) : parse inp = .ok (some (tr, rest)) ↔
    ∃ f message cls s fs, FrameText inp f (c!": " ++ message ++ c!"(" ++ cls ++ c!")\n" ++ s) ∧ '\t' ∉ message ∧ '\t' ∉ cls ∧
      cls ≠ [] ∧ '(' ∉ cls ∧ (s = [] ∨ peek s = '\t') ∧ Lines s fs rest ∧ tr = ⟨some cls, f :: fs⟩ := by
  have pe : ∀ r : Str, (r = [] ∨ peek r ∈ c!"\t") ↔ (r = [] ∨ peek r = '\t') := by intro r; simp
  unfold parse
  constructor
  · intro h
    obtain ⟨o, h1, h⟩ := bind_ok_iff.1 h
    cases o with
    | none => cases h
    | some x =>
      obtain ⟨f, s1⟩ := x
      dsimp only at h
      by_cases hb : ∃ u, s1 = c!": " ++ u
      swap
      · rw [skipString_fail hb] at h; cases h
      obtain ⟨u, rfl⟩ := hb
      rw [skipString_append] at h
      dsimp only at h
      rw [if_neg (by decide)] at h
      obtain ⟨⟨o, s2⟩, h2, h⟩ := bind_ok_iff.1 h
      cases o with
      | none => cases h
      | some m =>
        dsimp only at h
        obtain ⟨o, h3, h⟩ := bind_ok_iff.1 h
        cases o with
        | none => cases h
        | some cls =>
          dsimp only at h
          obtain ⟨o, h4, h⟩ := bind_ok_iff.1 h
          cases o with
          | none => cases h
          | some x =>
            obtain ⟨r, t⟩ := x
            dsimp only at h
            injection h with h
            simp only [Option.some.injEq, Prod.mk.injEq] at h
            obtain ⟨rfl, rfl⟩ := h
            obtain ⟨rfl, -, hm, he⟩ := parseCspan_iff.1 h2
            obtain ⟨message, rfl, hc, hp⟩ := exceptionClass_iff.1 h3
            obtain ⟨fs, hL, rfl⟩ := (framesLoop_iff _ s2 [f] r t (by omega)).1 h4
            have hm := notin hm
            refine ⟨f, message, cls, s2, fs, ?_, fun h => hm (by simp [h]), fun h => hm (by simp [h]), hc, hp, (pe _).1 he, hL, rfl⟩
            have := (C53_exact_frame _ _ _).1 h1
            simpa using this
  · rintro ⟨f, message, cls, s, fs, hf, hm, hc, hne, hp, he, hL, rfl⟩
    rw [(C53_exact_frame _ _ _).2 hf, Out.bind_ok]
    dsimp only
    have e : c!": " ++ message ++ c!"(" ++ cls ++ c!")\n" ++ s = c!": " ++ ((message ++ c!"(" ++ cls ++ c!")\n") ++ s) := by simp
    have ht : '\t' ∉ message ++ c!"(" ++ cls ++ c!")\n" := by
      intro h
      simp only [List.mem_append] at h
      rcases h with ((h | h) | h) | h
      · exact hm h
      · revert h; decide
      · exact hc h
      · revert h; decide
    rw [e, skipString_append]
    dsimp only
    rw [if_neg (by decide), parseCspan_iff.2 ⟨rfl, by simp, notin' ht, (pe _).2 he⟩, Out.bind_ok]
    dsimp only
    rw [exceptionClass_iff.2 ⟨message, rfl, hne, hp⟩, Out.bind_ok]
    dsimp only
    rw [(framesLoop_iff _ s [f] (f :: fs) rest (by omega)).2 ⟨fs, hL, rfl⟩, Out.bind_ok]

/-! ### Non-vacuity -/

example : FrameText c!"/usr/a:b.rb:12:in `rescue in block (2 levels) in <main>': x"
    ⟨some c!"/usr/a:b.rb", 12, true, some c!"main", 2, 1⟩ c!": x" := (C53_exact_frame _ _ _).1 (by decide +kernel)
example : ∃ tr rest f message cls s fs,
    FrameText c!"a.rb:1:in `f': no (really) (E)\n\tfrom b.rb:2:in `<main>'" f (c!": " ++ message ++ c!"(" ++ cls ++ c!")\n" ++ s) ∧
    '\t' ∉ message ∧ '\t' ∉ cls ∧ cls ≠ [] ∧ '(' ∉ cls ∧ (s = [] ∨ peek s = '\t') ∧ Lines s fs rest ∧ tr = (⟨some cls, f :: fs⟩ : RubyTrace) ∧
    cls = c!"E" ∧ fs.length = 1 := by
  have h : parse c!"a.rb:1:in `f': no (really) (E)\n\tfrom b.rb:2:in `<main>'" =
    .ok (some (⟨some c!"E", [⟨some c!"a.rb", 1, false, some c!"f", 0, 0⟩, ⟨some c!"b.rb", 2, true, some c!"main", 0, 0⟩]⟩, [])) := by
    decide +kernel
  obtain ⟨f, message, cls, s, fs, h1, h2, h3, h4, h5, h6, h7, h8⟩ := (C53_exact _ _ _).1 h
  refine ⟨_, _, f, message, cls, s, fs, h1, h2, h3, h4, h5, h6, h7, rfl, ?_, ?_⟩
  · injection h8 with e1 e2
    injection e1 with e1
    exact e1.symm
  · injection h8 with e1 e2
    have := congrArg List.length e2
    simp at this
    omega

end Satyr.Text.Ruby
