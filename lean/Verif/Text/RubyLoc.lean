import Verif.Text.RubyLines
import Verif.Text.RubyLocModel
/-!
# C136: the place of an error in a Ruby backtrace
-/
namespace Satyr.Text.Ruby
open Satyr.CStr Satyr.Frames

/-! ## The functions with locations read the same -/

/-- Forget the location and the message. -/
def forget {α β γ : Type} (g : β → γ) (x : Out (α ⊕ β)) : Out (Option γ) := x.bind fun r => .ok (r.getRight?.map g)

theorem fileAndLineL_eq (l : Str) (loc : Loc) : forget id (fileAndLineL l loc) = fileAndLine l := by
  unfold fileAndLineL fileAndLine
  split
  · rfl
  · dsimp only
    rcases backDigits (l.take (l.length - 4)) (l.take (l.length - 4)).length with p | _ | _
    · simp only [Out.bind_ok]
      rcases parseUint32 ((l.take (l.length - 4)).drop p) with ⟨n, _ | v, s⟩ | _ | _
      · rfl
      · simp only [Out.bind_ok]
        split
        · rfl
        · rcases rd (l.take (l.length - 4)) (p - 1) with c | _ | _
          · simp only [Out.bind_ok]
            split <;> rfl
          · rfl
          · rfl
      · rfl
      · rfl
    · rfl
    · rfl

theorem blocksL_eq (s : Str) (loc : Loc) : forget (fun r => (r.1, r.2.1)) (blocksL s loc) = blocks s := by
  unfold blocksL blocks
  dsimp only
  split
  · rfl
  · split
    · rfl
    · rcases parseUint32 (skipString s c!"block (").2 with ⟨n, _ | v, s⟩ | _ | _
      · rfl
      · simp only [Out.bind_ok]
        split <;> rfl
      · rfl
      · rfl

theorem functionNameL_eq (s : Str) (loc : Loc) : forget (fun r => (r.1, r.2.1, r.2.2.1)) (functionNameL s loc) = functionName s := by
  unfold functionNameL functionName
  rcases skipChar s '<' with ⟨special, s⟩ | _ | _
  · simp only [Out.bind_ok]
    rcases parseCharCspan s c!"'>" with ⟨_ | name, s⟩ | _ | _
    · rfl
    · simp only [Out.bind_ok]
      rcases closeSpecial special s with ⟨ok, s⟩ | _ | _
      · simp only [Out.bind_ok]
        split
        · rfl
        · rcases skipChar s '\'' with ⟨ok, s⟩ | _ | _
          · simp only [Out.bind_ok]
            split <;> rfl
          · rfl
          · rfl
      · rfl
      · rfl
    · rfl
    · rfl
  · rfl
  · rfl

theorem forget_ok {α β γ : Type} {g : β → γ} {x : Out (α ⊕ β)} {o : Option γ} (h : forget g x = .ok o) :
    (∃ e, x = .ok (.inl e) ∧ o = none) ∨ ∃ b, x = .ok (.inr b) ∧ o = some (g b) := by
  rcases x with (e | b) | _ | _
  · exact .inl ⟨e, rfl, (Out.ok.inj h).symm⟩
  · exact .inr ⟨b, rfl, (Out.ok.inj h).symm⟩
  · cases h
  · cases h

theorem parseFrameL_eq (s : Str) (loc : Loc) : forget (fun r => (r.1, r.2.1)) (parseFrameL s loc) = parseFrame s := by
  unfold parseFrameL parseFrame
  rcases parseCharCspan s c!"`" with ⟨_ | l, s⟩ | _ | _
  · rfl
  · simp only [Out.bind_ok]
    rw [← fileAndLineL_eq l (right loc l.length)]
    rcases fileAndLineL l (right loc l.length) with (e | ⟨file, line⟩) | _ | _
    · rfl
    · simp only [Out.bind_ok]
      show _ = (Out.ok (some (file, line)) >>= _)
      rw [Out.bind_ok]
      rcases skipChar s '`' with ⟨ok, s⟩ | _ | _
      · simp only [Out.bind_ok]
        split
        · rfl
        · rcases rescues (s.length + 1) s 0 with ⟨rescue, s⟩
          dsimp only
          rw [← blocksL_eq s (right loc (l.length + 1 + 10 * rescue))]
          rcases blocksL s (right loc (l.length + 1 + 10 * rescue)) with (e | ⟨block, s, loc⟩) | _ | _
          · rfl
          · simp only [Out.bind_ok]
            show _ = (Out.ok (some (block, s)) >>= _)
            rw [Out.bind_ok]
            dsimp only
            rw [← functionNameL_eq s loc]
            rcases functionNameL s loc with (e | ⟨special, name, s, loc⟩) | _ | _ <;> rfl
          · rfl
          · rfl
      · rfl
      · rfl
    · rfl
    · rfl
  · rfl
  · rfl


/-! ## How the location changes -/

/-- A failure within the text `s` at `loc`, at most `d` columns before it. -/
def Inside (loc : Loc) (s : Str) (d : Int) (e : Failure) : Prop :=
  e.1.line = loc.line ∧ loc.column - d ≤ e.1.column ∧ e.1.column ≤ loc.column + s.length

/-- The location after reading `s` up to `t`, which may be one column short. -/
def After (loc : Loc) (s t : Str) (l : Loc) : Prop :=
  l.line = loc.line ∧ t.length ≤ s.length ∧ loc.column + s.length ≤ l.column + t.length + 1 ∧ l.column + t.length ≤ loc.column + s.length

theorem blocksL_loc {s : Str} {loc : Loc} : (∀ e, blocksL s loc = .ok (.inl e) → Inside loc s 0 e) ∧
    ∀ n t l, blocksL s loc = .ok (.inr (n, t, l)) → After loc s t l := by
  unfold blocksL Inside After right
  by_cases h1 : ∃ u, s = c!"block in " ++ u
  · obtain ⟨u, rfl⟩ := h1
    rw [skipString_append]
    dsimp only
    rw [if_pos (by simp)]
    refine ⟨by rintro e ⟨⟩, ?_⟩
    rintro n t l ⟨⟩
    refine ⟨rfl, ?_, ?_, ?_⟩ <;> simp only [List.length_append, List.length_cons, List.length_nil, Nat.cast_add, Nat.cast_one, Nat.cast_zero] <;> omega
  rw [skipString_fail h1]
  dsimp only
  rw [if_neg (by simp)]
  by_cases h2 : ∃ u, s = c!"block (" ++ u
  · obtain ⟨u, rfl⟩ := h2
    rw [skipString_append]
    dsimp only
    rw [if_neg (by simp)]
    obtain ⟨⟨n, v, t⟩, hp⟩ := parseUint32_fine u
    rw [hp, Out.bind_ok]
    cases v with
    | none =>
      dsimp only
      refine ⟨?_, by rintro n t l ⟨⟩⟩
      rintro e ⟨⟩
      refine ⟨rfl, ?_, ?_⟩ <;> simp only [List.length_append, List.length_cons, List.length_nil, Nat.cast_add, Nat.cast_one, Nat.cast_zero] <;> omega
    | some v =>
      obtain ⟨d, rfl, -, rfl, -⟩ := parseUint32_iff.1 hp
      dsimp only
      by_cases h3 : ∃ w, t = c!" levels) in " ++ w
      · obtain ⟨w, rfl⟩ := h3
        rw [skipString_append]
        dsimp only
        rw [if_neg (by simp)]
        refine ⟨by rintro e ⟨⟩, ?_⟩
        rintro n t l ⟨⟩
        refine ⟨rfl, ?_, ?_, ?_⟩ <;> simp only [List.length_append, List.length_cons, List.length_nil, Nat.cast_add, Nat.cast_one, Nat.cast_zero] <;> omega
      · rw [skipString_fail h3]
        dsimp only
        rw [if_pos rfl]
        refine ⟨?_, by rintro n t l ⟨⟩⟩
        rintro e ⟨⟩
        refine ⟨rfl, ?_, ?_⟩ <;> simp only [List.length_append, List.length_cons, List.length_nil, Nat.cast_add, Nat.cast_one, Nat.cast_zero] <;> omega
  · rw [skipString_fail h2]
    dsimp only
    rw [if_pos rfl]
    refine ⟨by rintro e ⟨⟩, ?_⟩
    rintro n t l ⟨⟩
    refine ⟨rfl, ?_, ?_, ?_⟩ <;> omega

theorem skipChar_len {s t : Str} {b : Bool} {c : Char} (hc : c ≠ '\x00') (h : skipChar s c = .ok (b, t)) :
    s.length = t.length + if b = true then 1 else 0 := by
  cases b with
  | true => rw [(skipChar_iff hc).1 h]; rfl
  | false => rw [((skipChar_false hc).1 h).1]; rfl

theorem functionNameL_loc {s : Str} {loc : Loc} : (∀ e, functionNameL s loc = .ok (.inl e) → Inside loc s 0 e) ∧
    ∀ b n t l, functionNameL s loc = .ok (.inr (b, n, t, l)) → l.line = loc.line ∧ l.column + t.length = loc.column + s.length := by
  unfold functionNameL Inside right
  obtain ⟨⟨special, s1⟩, h1⟩ := skipChar_fine s (c := '<') (by decide)
  have l1 := skipChar_len (by decide) h1
  rw [h1, Out.bind_ok]
  dsimp only
  obtain ⟨⟨o, s2⟩, h2⟩ := parseCharCspan_fine s1 c!"'>"
  rw [h2, Out.bind_ok]
  cases o with
  | none =>
    dsimp only
    refine ⟨?_, by rintro b n t l ⟨⟩⟩
    rintro e ⟨⟩
    cases special <;> (dsimp only at l1 ⊢; simp at l1 ⊢; try omega)
  | some name =>
    obtain ⟨rfl, -, -, -⟩ := parseCspan_iff.1 h2
    dsimp only
    have h3 : ∃ r, closeSpecial special s2 = .ok r := by
      unfold closeSpecial
      split
      · exact skipChar_fine s2 (by decide)
      · exact ⟨_, rfl⟩
    obtain ⟨⟨ok, s3⟩, h3⟩ := h3
    rw [h3, Out.bind_ok]
    dsimp only
    rw [List.length_append] at l1
    cases ok with
    | false =>
      rw [if_pos rfl]
      refine ⟨?_, by rintro b n t l ⟨⟩⟩
      rintro e ⟨⟩
      cases special <;> (dsimp only at l1 ⊢; simp at l1 ⊢; try omega)
    | true =>
      rw [if_neg (by decide)]
      have l3 : s2.length = s3.length + if special = true then 1 else 0 := by
        unfold closeSpecial at h3
        cases special with
        | true => rw [if_pos rfl] at h3; exact skipChar_len (by decide) h3
        | false => rw [if_neg (by decide)] at h3; cases h3; rfl
      obtain ⟨⟨ok, s4⟩, h4⟩ := skipChar_fine s3 (c := '\'') (by decide)
      have l4 := skipChar_len (by decide) h4
      rw [h4, Out.bind_ok]
      dsimp only
      cases ok with
      | false =>
        rw [if_pos rfl]
        refine ⟨?_, by rintro b n t l ⟨⟩⟩
        rintro e ⟨⟩
        cases special <;> (dsimp only at l1 l3 ⊢; simp at l1 l3 ⊢; omega)
      | true =>
        rw [if_neg (by decide)]
        refine ⟨by rintro e ⟨⟩, ?_⟩
        rintro b n t l ⟨⟩
        cases special <;> (dsimp only at l1 l3 l4 ⊢; simp at l1 l3 l4 ⊢; omega)

theorem fileAndLineL_loc {l : Str} {loc : Loc} (hl : l ≠ []) (e : Failure) (h : fileAndLineL l (right loc l.length) = .ok (.inl e)) : Inside loc l 3 e := by
  have hl := List.length_pos_of_ne_nil hl
  unfold fileAndLineL at h
  unfold Inside
  split at h
  · cases h
    simp [right]; omega
  · next hn =>
    rw [not_or] at hn
    obtain ⟨p, h1, h⟩ := bind_ok_iff.1 h
    obtain ⟨⟨n, v, t⟩, h2, h⟩ := bind_ok_iff.1 h
    cases v with
    | none =>
      cases h
      simp [right]; omega
    | some v =>
      obtain ⟨d, hd, -, rfl, -⟩ := parseUint32_iff.1 h2
      have := congrArg List.length hd
      rw [List.length_drop, List.length_take, List.length_append] at this
      dsimp only at h
      split at h
      · cases h
        simp [right]; omega
      · obtain ⟨c, h3, h⟩ := bind_ok_iff.1 h
        split at h
        · cases h
          simp [right]; omega
        · cases h

theorem rescues_length (s : Str) : s.length = 10 * (rescues (s.length + 1) s 0).1 + (rescues (s.length + 1) s 0).2.length := by
  obtain ⟨m, h1, h2, -⟩ := (rescues_iff (s.length + 1) s 0 _ _ (Nat.lt_succ_self _)).1 (Prod.mk.eta.symm)
  conv => lhs; rw [h2]
  simp [List.length_flatten] at h1 ⊢
  omega

/-- Reading a frame does not change the line; the column is that of the text that was read, or one less. -/
theorem parseFrameL_loc {s : Str} {loc : Loc} : (∀ e, parseFrameL s loc = .ok (.inl e) → Inside loc s 3 e) ∧
    ∀ f t l, parseFrameL s loc = .ok (.inr (f, t, l)) → After loc s t l := by
  unfold parseFrameL
  obtain ⟨⟨o, s1⟩, h1⟩ := parseCharCspan_fine s c!"`"
  rw [h1, Out.bind_ok]
  cases o with
  | none =>
    refine ⟨?_, by rintro f t l ⟨⟩⟩
    rintro e ⟨⟩
    simp [Inside]
  | some l =>
    obtain ⟨rfl, hne, -, -⟩ := parseCspan_iff.1 h1
    dsimp only
    constructor
    · intro e h
      obtain ⟨r, h2, h⟩ := bind_ok_iff.1 h
      cases r with
      | inl e' =>
        cases h
        obtain ⟨k1, k2, k3⟩ := fileAndLineL_loc hne e h2
        refine ⟨k1, k2, ?_⟩
        rw [List.length_append]; omega
      | inr x =>
        obtain ⟨⟨ok, s2⟩, h3, h⟩ := bind_ok_iff.1 h
        have l3 := skipChar_len (by decide) h3
        dsimp only at h
        cases ok with
        | false =>
          rw [if_pos rfl] at h
          cases h
          simp [Inside, right]; omega
        | true =>
          rw [if_neg (by decide)] at h
          simp only [if_pos] at l3
          have l4 := rescues_length s2
          generalize rescues (s2.length + 1) s2 0 = y at h l4
          obtain ⟨m, s3⟩ := y
          dsimp only at h l4
          obtain ⟨r, h5, h⟩ := bind_ok_iff.1 h
          cases r with
          | inl e' =>
            cases h
            obtain ⟨k1, k2, k3⟩ := blocksL_loc.1 e h5
            refine ⟨k1, ?_, ?_⟩ <;> (simp only [right] at k2 k3; try rw [List.length_append]) <;> omega
          | inr z =>
            obtain ⟨n, s4, l'⟩ := z
            obtain ⟨k1, k2, k3, k4⟩ := blocksL_loc.2 n s4 l' h5
            simp only [right] at k1 k3 k4
            obtain ⟨r, h6, h⟩ := bind_ok_iff.1 h
            cases r with
            | inl e' =>
              cases h
              obtain ⟨j1, j2, j3⟩ := functionNameL_loc.1 e h6
              refine ⟨j1.trans k1, ?_, ?_⟩ <;> (try rw [List.length_append]) <;> omega
            | inr w => cases h
    · intro f t l'' h
      obtain ⟨r, h2, h⟩ := bind_ok_iff.1 h
      cases r with
      | inl e' => cases h
      | inr x =>
        obtain ⟨⟨ok, s2⟩, h3, h⟩ := bind_ok_iff.1 h
        have l3 := skipChar_len (by decide) h3
        dsimp only at h
        cases ok with
        | false => rw [if_pos rfl] at h; cases h
        | true =>
          rw [if_neg (by decide)] at h
          simp only [if_pos] at l3
          have l4 := rescues_length s2
          generalize rescues (s2.length + 1) s2 0 = y at h l4
          obtain ⟨m, s3⟩ := y
          dsimp only at h l4
          obtain ⟨r, h5, h⟩ := bind_ok_iff.1 h
          cases r with
          | inl e' => cases h
          | inr z =>
            obtain ⟨n, s4, l'⟩ := z
            obtain ⟨k1, k2, k3, k4⟩ := blocksL_loc.2 n s4 l' h5
            simp only [right] at k1 k3 k4
            obtain ⟨r, h6, h⟩ := bind_ok_iff.1 h
            cases r with
            | inl e' => cases h
            | inr w =>
              obtain ⟨b, nm, s5, l5⟩ := w
              cases h
              obtain ⟨j1, j2⟩ := functionNameL_loc.2 _ _ _ _ h6
              have hw : t.length ≤ s4.length := by
                have h7 := functionNameL_eq s4 l'
                rw [h6] at h7
                obtain ⟨-, -, -, ⟨-, hx⟩ | ⟨-, -, hx⟩⟩ := functionName_iff.1 h7.symm <;> (have := congrArg List.length hx; simp at this; omega)
              refine ⟨j1.trans k1, ?_, ?_, ?_⟩ <;> (try rw [List.length_append]) <;> omega


/-! ## Records -/

/-- The first record: a frame, the message and the class of the exception. -/
def Head (s : Str) (f : RubyFrame) (cls rest : Str) : Prop :=
  ∃ message, FrameText s f (c!": " ++ message ++ c!"(" ++ cls ++ c!")\n" ++ rest) ∧ '\t' ∉ message ∧ '\t' ∉ cls ∧ cls ≠ [] ∧ '(' ∉ cls ∧
    (rest = [] ∨ peek rest = '\t')

/-- `k` frames, each with its newline, from `s` to `r`. -/
inductive Calls : Nat → Str → Str → Prop
  | zero (s : Str) : Calls 0 s s
  | more {k : Nat} {x u r : Str} {f : RubyFrame} : FrameText x f ('\n' :: u) → Calls k u r → Calls (k + 1) (c!"\tfrom " ++ x) r

/-- `k` records of a backtrace from `s` to `r`. -/
def Read : Nat → Str → Str → Prop
  | 0, s, r => s = r
  | k + 1, s, r => ∃ f cls u, Head s f cls u ∧ Calls k u r

/-- The record after `k` others can be read. -/
def Next : Nat → Str → Prop
  | 0, s => ∃ f cls u, Head s f cls u
  | _ + 1, s => s = [] ∨ ∃ x f t, s = c!"\tfrom " ++ x ∧ FrameText x f t ∧ (t = [] ∨ peek t = '\n')

theorem FrameText.unique {s t t' : Str} {f f' : RubyFrame} (h : FrameText s f t) (h' : FrameText s f' t') : f = f' ∧ t = t' := by
  have h1 := (C53_exact_frame s f t).2 h
  rw [(C53_exact_frame s f' t').2 h'] at h1
  cases h1
  exact ⟨rfl, rfl⟩

theorem FrameText.suffix {s t : Str} {f : RubyFrame} (h : FrameText s f t) : ∃ d, s = d ++ t ∧ d ≠ [] := by
  obtain ⟨file, digits, line, s1, rescue, s2, block, s3, special, name, rfl, -, -, h1, h2, h3, -⟩ := h
  have e3 : ∃ d, s3 = d ++ t := by
    obtain ⟨-, -, -, ⟨-, rfl⟩ | ⟨-, -, rfl⟩⟩ := h3
    · exact ⟨_, rfl⟩
    · exact ⟨_, rfl⟩
  obtain ⟨d3, rfl⟩ := e3
  have e2 : ∃ d, s2 = d ++ (d3 ++ t) := by
    cases h2 with
    | one _ => exact ⟨_, rfl⟩
    | many _ _ _ _ => exact ⟨_, rfl⟩
    | none _ _ _ => exact ⟨[], rfl⟩
  obtain ⟨d2, rfl⟩ := e2
  rw [h1.1]
  exact ⟨file ++ c!":" ++ digits ++ c!":in `" ++ ((List.replicate rescue c!"rescue in ").flatten ++ (d2 ++ d3)), by simp, by simp⟩

theorem Head.suffix {s u cls : Str} {f : RubyFrame} (h : Head s f cls u) : ∃ d, s = d ++ '\n' :: u := by
  obtain ⟨m, h, -⟩ := h
  obtain ⟨d, rfl, -⟩ := h.suffix
  exact ⟨d ++ (c!": " ++ m ++ c!"(" ++ cls ++ c!")"), by simp⟩

theorem Calls.split {k : Nat} {s r : Str} (h : Calls k s r) : ∃ d, s = d ++ r ∧ k ≤ d.count '\n' ∧ (d = [] ∨ ∃ e, d = e ++ ['\n']) := by
  induction h with
  | zero s => exact ⟨[], rfl, by simp, .inl rfl⟩
  | @more k x u r f h _ ih =>
    obtain ⟨d, rfl, h1, h2⟩ := ih
    obtain ⟨e, rfl, -⟩ := h.suffix
    refine ⟨c!"\tfrom " ++ e ++ '\n' :: d, by simp, by simp; omega, .inr ?_⟩
    rcases h2 with rfl | ⟨g, rfl⟩
    · exact ⟨c!"\tfrom " ++ e, rfl⟩
    · exact ⟨c!"\tfrom " ++ e ++ '\n' :: g, by simp⟩

theorem Read.split {k : Nat} {s r : Str} (h : Read k s r) : ∃ d, s = d ++ r ∧ k ≤ d.count '\n' ∧ (d = [] ∨ ∃ e, d = e ++ ['\n']) := by
  cases k with
  | zero => exact ⟨[], h, by simp, .inl rfl⟩
  | succ k =>
    obtain ⟨f, cls, u, h1, h2⟩ := h
    obtain ⟨e, rfl⟩ := h1.suffix
    obtain ⟨d, rfl, h3, h4⟩ := h2.split
    refine ⟨e ++ '\n' :: d, by simp, by simp; omega, .inr ?_⟩
    rcases h4 with rfl | ⟨g, rfl⟩
    · exact ⟨e, rfl⟩
    · exact ⟨e ++ '\n' :: g, by simp⟩

/-! ## What is read, or where reading stops -/

theorem frame_cases (s : Str) (loc : Loc) :
    (∃ f t l, parseFrameL s loc = .ok (.inr (f, t, l)) ∧ FrameText s f t ∧ After loc s t l) ∨
    ∃ e, parseFrameL s loc = .ok (.inl e) ∧ Inside loc s 3 e ∧ ∀ f t, ¬ FrameText s f t := by
  obtain ⟨r, hr⟩ := C56_ruby_frame s
  have he := parseFrameL_eq s loc
  rw [hr] at he
  rcases forget_ok he with ⟨e, h1, rfl⟩ | ⟨⟨f, t, l⟩, h1, rfl⟩
  · refine .inr ⟨e, h1, parseFrameL_loc.1 e h1, fun f t h => ?_⟩
    rw [(C53_exact_frame s f t).2 h] at hr
    cases hr
  · exact .inl ⟨f, t, l, h1, (C53_exact_frame s f t).1 hr, parseFrameL_loc.2 f t l h1⟩

theorem exceptionClassL_eq (m : Str) (loc : Loc) : forget id (exceptionClassL m loc) = exceptionClass m := by
  unfold exceptionClassL exceptionClass
  have hd : m.drop (m.length - 2) = c!")\n" → m.drop (m.length - 1) = c!"\n" := by
    intro h
    by_cases h2 : 2 ≤ m.length
    · rw [show m.length - 1 = m.length - 2 + 1 by omega, ← List.drop_drop, h]; rfl
    · rw [show m.length - 2 = 0 by omega, List.drop_zero] at h
      subst h; rfl
  split
  · next h =>
    rw [if_pos]
    · rfl
    · rcases h with h | h
      · exact .inl (by omega)
      · exact .inr (fun e => h (hd e))
  · split
    · rfl
    · dsimp only
      rcases backParen (m.take (m.length - 2)) (m.take (m.length - 2)).length with p | _ | _
      · simp only [Out.bind_ok]
        split
        · rfl
        · split
          · rfl
          · rcases rd (m.take (m.length - 2)) (p - 1) with c | _ | _
            · simp only [Out.bind_ok]
              split <;> rfl
            · rfl
            · rfl
      · rfl
      · rfl

theorem exceptionClassL_loc {m : Str} {loc : Loc} (hm : m ≠ []) (e : Failure) (h : exceptionClassL m (right loc m.length) = .ok (.inl e)) :
    Inside loc m 1 e := by
  have hm := List.length_pos_of_ne_nil hm
  unfold exceptionClassL at h
  unfold Inside
  split at h
  · cases h; simp [right]
  split at h
  · cases h; simp [right]; omega
  obtain ⟨p, -, h⟩ := bind_ok_iff.1 h
  split at h
  · cases h; simp [right]; omega
  split at h
  · cases h; simp [right]; omega
  obtain ⟨c, -, h⟩ := bind_ok_iff.1 h
  split at h
  · cases h; simp [right]; omega
  · cases h

theorem head_cases (s : Str) (loc : Loc) :
    (∃ f cls u, headL s loc = .ok (.inr (f, cls, u, ⟨loc.line + 1, 0⟩)) ∧ Head s f cls u) ∨
    ∃ e, headL s loc = .ok (.inl e) ∧ Inside loc s 3 e ∧ ∀ f cls u, ¬ Head s f cls u := by
  unfold headL
  rcases frame_cases s loc with ⟨f, t, l, h1, h2, h3, h4, h5, h6⟩ | ⟨e, h1, h2, h3⟩
  · rw [h1, Out.bind_ok]
    dsimp only
    obtain ⟨d, rfl, -⟩ := h2.suffix
    rw [List.length_append] at h4 h5 h6
    by_cases hc : ∃ u, t = c!": " ++ u
    · obtain ⟨u, rfl⟩ := hc
      rw [skipString_append]
      dsimp only
      rw [if_neg (by decide)]
      obtain ⟨⟨o, r⟩, k1⟩ := parseCharCspan_fine u c!"\t"
      rw [k1, Out.bind_ok]
      have hh : ∀ f' cls r', Head (d ++ (c!": " ++ u)) f' cls r' → f' = f ∧ ∃ message, u = message ++ c!"(" ++ cls ++ c!")\n" ++ r' ∧
          '\t' ∉ message ++ c!"(" ++ cls ++ c!")\n" ∧ cls ≠ [] ∧ '(' ∉ cls ∧ (r' = [] ∨ peek r' = '\t') := by
        rintro f' cls r' ⟨message, q1, q2, q3, q4, q5, q6⟩
        obtain ⟨rfl, e⟩ := q1.unique h2
        rw [List.append_assoc, List.append_assoc, List.append_assoc, List.append_assoc] at e
        exact ⟨rfl, message, by rw [← List.append_cancel_left e]; simp, by simp [q2, q3], q4, q5, q6⟩
      cases o with
      | none =>
        refine .inr ⟨_, rfl, ⟨h3, ?_, ?_⟩, ?_⟩
        · simp [right] at h5 h6 ⊢; omega
        · simp [right] at h5 h6 ⊢; omega
        · rintro f' cls r' q
          obtain ⟨-, message, q1, q2, -, -, q3⟩ := hh f' cls r' q
          have : parseCharCspan u c!"\t" = .ok (some (message ++ c!"(" ++ cls ++ c!")\n"), r') :=
            parseCspan_iff.2 ⟨q1, by simp, notin' q2, q3.imp id fun h => by simp [h]⟩
          rw [k1] at this
          cases this
      | some m =>
        obtain ⟨rfl, km, kt, kr⟩ := parseCspan_iff.1 k1
        dsimp only
        have kt := notin kt
        obtain ⟨o, k2⟩ := exceptionClass_fine m
        have k3 := exceptionClassL_eq m (right (right l 2) m.length)
        rw [k2] at k3
        rcases forget_ok k3 with ⟨e, k4, rfl⟩ | ⟨cls, k4, rfl⟩
        · rw [k4, Out.bind_ok]
          obtain ⟨j1, j2, j3⟩ := exceptionClassL_loc km e k4
          refine .inr ⟨_, rfl, ⟨j1.trans h3, ?_, ?_⟩, ?_⟩
          · simp [right] at h5 h6 j2 j3 ⊢; omega
          · simp [right] at h5 h6 j2 j3 ⊢; omega
          · rintro f' cls r' q
            obtain ⟨-, message, q1, q2, q3, q4, q5⟩ := hh f' cls r' q
            have : parseCharCspan (m ++ r) c!"\t" = .ok (some (message ++ c!"(" ++ cls ++ c!")\n"), r') :=
              parseCspan_iff.2 ⟨q1, by simp, notin' q2, q5.imp id fun h => by simp [h]⟩
            rw [k1] at this
            injection this with this
            rw [Prod.mk.injEq, Option.some.injEq] at this
            obtain ⟨rfl, -⟩ := this
            rw [(exceptionClass_iff).2 ⟨message, rfl, q3, q4⟩] at k2
            cases k2
        · rw [k4, Out.bind_ok]
          obtain ⟨message, rfl, q1, q2⟩ := exceptionClass_iff.1 k2
          refine .inl ⟨f, cls, r, by simp [right, h3], message, by simpa using h2, fun hm => kt (by simp [hm]), fun hm => kt (by simp [hm]), q1, q2, ?_⟩
          exact kr.imp id fun h => by simpa using h
    · rw [skipString_fail hc]
      dsimp only
      rw [if_pos rfl]
      refine .inr ⟨_, rfl, ⟨h3, ?_, ?_⟩, ?_⟩
      · simp at h5 h6 ⊢; omega
      · simp at h5 h6 ⊢; omega
      · rintro f' cls u ⟨m, q1, -⟩
        obtain ⟨-, e⟩ := q1.unique h2
        exact hc ⟨m ++ c!"(" ++ cls ++ c!")\n" ++ u, by rw [← e]; simp⟩
  · rw [h1, Out.bind_ok]
    refine .inr ⟨_, rfl, h2, ?_⟩
    rintro f' cls u ⟨m, q1, -⟩
    exact h3 _ _ q1

theorem loop_cases : ∀ (fuel : Nat) (s : Str) (line : Int) (acc : List RubyFrame), s.length < fuel → NoNul s →
    (∃ r t, framesLoopL fuel s ⟨line, 0⟩ acc = .ok (.inr (r, t)) ∧ framesLoop fuel s acc = .ok (some (r, t))) ∨
    ∃ e k r, framesLoopL fuel s ⟨line, 0⟩ acc = .ok (.inl e) ∧ framesLoop fuel s acc = .ok none ∧ Calls k s r ∧ ¬ Next (k + 1) r ∧
      e.1.line = line + k ∧ -3 ≤ e.1.column ∧ e.1.column ≤ r.length
  | 0, s, line, acc, h, _ => by omega
  | fuel + 1, s, line, acc, h, hz => by
    rw [framesLoopL, framesLoop]
    by_cases hs : s = []
    · subst hs
      exact .inl ⟨acc, [], rfl, rfl⟩
    have hp : peek s ≠ '\x00' := by
      cases s with
      | nil => exact absurd rfl hs
      | cons c s => rintro e; exact hz (by rw [show c = '\x00' from e]; simp)
    rw [if_neg hp, if_neg hp]
    by_cases h1 : ∃ x, s = c!"\tfrom " ++ x
    · obtain ⟨x, rfl⟩ := h1
      rw [skipString_append]
      dsimp only
      rw [if_neg (by decide), if_neg (by decide)]
      rcases frame_cases x (right ⟨line, 0⟩ c!"\tfrom ".length) with ⟨f, t, l, k1, k2, k3, k4, k5, k6⟩ | ⟨e, k1, ⟨k2, k3, k4⟩, k5⟩
      · rw [k1, (C53_exact_frame x f t).2 k2, Out.bind_ok, Out.bind_ok]
        dsimp only
        obtain ⟨d, rfl, hd⟩ := k2.suffix
        have hz' : NoNul t := fun hm => hz (by simp [hm])
        simp only [right] at k3 k5 k6
        obtain ⟨⟨b, t'⟩, j1⟩ := skipChar_fine t (c := '\n') (by decide)
        rw [j1, Out.bind_ok, Out.bind_ok]
        cases b with
        | true =>
          obtain rfl := (skipChar_iff (by decide)).1 j1
          dsimp only
          rw [if_neg (by simp), if_neg (by simp), k3]
          have hd := List.length_pos_of_ne_nil hd
          rcases loop_cases fuel t' (line + 1) (acc ++ [f]) (by simp at h; omega) (fun hm => hz' (by simp [hm])) with
            ⟨r, u, q1, q2⟩ | ⟨e, k, r, q1, q2, q3, q4, q5, q6⟩
          · exact .inl ⟨r, u, q1, q2⟩
          · exact .inr ⟨e, k + 1, r, q1, q2, .more k2 q3, q4, by rw [q5]; push_cast; omega, q6⟩
        | false =>
          obtain ⟨rfl, hp'⟩ := (skipChar_false (by decide)).1 j1
          dsimp only
          by_cases ht : t' = []
          · subst ht
            rw [if_neg (by simp), if_neg (by simp)]
            have hf : ∃ g, fuel = g + 1 := ⟨fuel - 1, by simp at h; omega⟩
            obtain ⟨g, rfl⟩ := hf
            exact .inl ⟨acc ++ [f], [], rfl, rfl⟩
          · have : peek t' ≠ '\x00' := by
              cases t' with
              | nil => exact absurd rfl ht
              | cons c s => rintro e; exact hz' (by rw [show c = '\x00' from e]; simp)
            rw [if_pos ⟨rfl, this⟩, if_pos ⟨rfl, this⟩]
            refine .inr ⟨_, 0, _, rfl, rfl, .zero _, ?_, by rw [k3]; simp, ?_, ?_⟩
            · rintro (e | ⟨x', f', t'', e, q1, q2⟩)
              · cases e
              · obtain rfl := List.append_cancel_left e
                obtain ⟨-, rfl⟩ := q1.unique k2
                exact q2.elim ht hp'
            · simp at k5 k6 ⊢; omega
            · simp at k5 k6 ⊢; omega
      · have : parseFrame x = .ok none := by
          obtain ⟨r, hr⟩ := C56_ruby_frame x
          rcases r with _ | ⟨f, t⟩
          · exact hr
          · exact absurd ((C53_exact_frame x f t).1 hr) (k5 f t)
        rw [k1, this, Out.bind_ok, Out.bind_ok]
        refine .inr ⟨_, 0, _, rfl, rfl, .zero _, ?_, by rw [k2]; simp [right], ?_, ?_⟩
        · rintro (e | ⟨x', f', t'', e, q1, q2⟩)
          · cases e
          · obtain rfl := List.append_cancel_left e
            exact k5 _ _ q1
        · simp [right] at k3 ⊢; omega
        · simp [right] at k4 ⊢; omega
    · rw [skipString_fail h1]
      dsimp only
      rw [if_pos rfl, if_pos rfl]
      refine .inr ⟨_, 0, s, rfl, rfl, .zero s, ?_, by simp, by simp, by simp⟩
      rintro (e | ⟨x', f', t'', e, -⟩)
      · exact hs e
      · exact h1 ⟨_, e⟩


theorem Calls.unique {k : Nat} {s r : Str} (h : Calls k s r) : ∀ {k' : Nat} {r' : Str}, Calls k' s r' → ¬ Next (k + 1) r → ¬ Next (k' + 1) r' →
    k = k' ∧ r = r' := by
  induction h with
  | zero s =>
    intro k' r' h' hn hn'
    cases h' with
    | zero _ => exact ⟨rfl, rfl⟩
    | more h1 _ => exact absurd (.inr ⟨_, _, _, rfl, h1, .inr rfl⟩) hn
  | @more k x u r f h1 _ ih =>
    intro k' r' h' hn hn'
    generalize hs : c!"\tfrom " ++ x = y at h'
    cases h' with
    | zero _ => exact absurd (.inr ⟨x, _, _, hs.symm, h1, .inr rfl⟩) hn'
    | more h1' h2' =>
      obtain rfl := List.append_cancel_left hs
      obtain ⟨-, e⟩ := h1.unique h1'
      obtain rfl := List.cons_injective e
      obtain ⟨rfl, rfl⟩ := ih h2' hn hn'
      exact ⟨rfl, rfl⟩

/-- The place where reading stops: after `k` records, at a text that is no further record. -/
def Stops (inp : Str) (k : Nat) (rest : Str) : Prop := Read k inp rest ∧ ¬ Next k rest

theorem head_unique {s u u' cls cls' : Str} {f f' : RubyFrame} (h : Head s f cls u) (h' : Head s f' cls' u') : u = u' := by
  rcases head_cases s Loc.init with ⟨g, d, v, h1, h2⟩ | ⟨e, -, -, h3⟩
  · have key : ∀ {f cls u}, Head s f cls u → ∃ m, parseCharCspan (c!": " ++ m).tail.tail c!"\t" = .ok (some (m.take (m.length - u.length)), u) ∧
        FrameText s f (c!": " ++ m) := by
      rintro f cls u ⟨m, q1, q2, q3, q4, q5, q6⟩
      refine ⟨m ++ c!"(" ++ cls ++ c!")\n" ++ u, ?_, by simpa using q1⟩
      show parseCharCspan (m ++ c!"(" ++ cls ++ c!")\n" ++ u) _ = _
      rw [show (m ++ c!"(" ++ cls ++ c!")\n" ++ u).length - u.length = (m ++ c!"(" ++ cls ++ c!")\n").length by
        rw [List.length_append, Nat.add_sub_cancel], List.take_left]
      exact parseCspan_iff.2 ⟨rfl, by simp, notin' (by simp [q2, q3]), q6.imp id fun h => by simp [h]⟩
    obtain ⟨m, a1, a2⟩ := key h
    obtain ⟨m', b1, b2⟩ := key h'
    obtain ⟨-, e⟩ := a2.unique b2
    obtain rfl := List.append_cancel_left e
    rw [a1] at b1
    injection b1 with b1
    exact (Prod.mk.inj b1).2
  · exact absurd h (h3 _ _ _)

theorem Stops.unique {inp r r' : Str} {k k' : Nat} (h : Stops inp k r) (h' : Stops inp k' r') : k = k' ∧ r = r' := by
  obtain ⟨h1, h2⟩ := h
  obtain ⟨h1', h2'⟩ := h'
  cases k with
  | zero =>
    have h1 : inp = r := h1
    subst h1
    cases k' with
    | zero => exact ⟨rfl, h1'⟩
    | succ k' =>
      obtain ⟨f, cls, u, q, -⟩ := h1'
      exact absurd ⟨f, cls, u, q⟩ h2
  | succ k =>
    obtain ⟨f, cls, u, q, q'⟩ := h1
    cases k' with
    | zero =>
      have h1' : inp = r' := h1'
      subst h1'
      exact absurd ⟨f, cls, u, q⟩ h2'
    | succ k' =>
      obtain ⟨f', cls', u', p, p'⟩ := h1'
      obtain rfl := head_unique q p
      obtain ⟨rfl, rfl⟩ := q'.unique p' h2 h2'
      exact ⟨rfl, rfl⟩

theorem parse_cases (inp : Str) (hz : NoNul inp) :
    (∃ t, parseText inp = .ok (.inl t) ∧ ∃ rest, parse inp = .ok (some (t, rest))) ∨
    ∃ (k : Nat) (rest : Str) (column : Int) (message : Str), parseText inp = .ok (.inr (Loc.text ⟨k + 1, column⟩ (some message))) ∧ parse inp = .ok none ∧
      Stops inp k rest ∧ -3 ≤ column ∧ column ≤ rest.length := by
  have hp : parse inp = (headL inp Loc.init).bind fun
      | .inl _ => .ok none
      | .inr (f, name, s, _) => (framesLoop (s.length + 1) s [f]).bind fun
        | none => .ok none
        | some (frames, s) => .ok (some (⟨some name, frames⟩, s)) := by
    unfold parse headL
    rw [← parseFrameL_eq inp Loc.init]
    rcases parseFrameL inp Loc.init with (e | ⟨f, s, l⟩) | _ | _
    · rfl
    · show (Out.ok (some (f, s)) >>= _) = Out.bind (Out.ok (Sum.inr (f, s, l)) >>= _) _
      rw [Out.bind_ok, Out.bind_ok]
      dsimp only
      split
      · rfl
      · rcases parseCharCspan (skipString s c!": ").2 c!"\t" with ⟨_ | m, s⟩ | _ | _
        · rfl
        · simp only [Out.bind_ok]
          rw [← exceptionClassL_eq m (right (right l 2) m.length)]
          rcases exceptionClassL m (right (right l 2) m.length) with (e | name) | _ | _ <;> rfl
        · rfl
        · rfl
    · rfl
    · rfl
  unfold parseText parseL
  rcases head_cases inp Loc.init with ⟨f, cls, u, h1, h2⟩ | ⟨e, h1, ⟨h2, h3, h4⟩, h5⟩
  · rw [h1] at hp
    rw [h1, Out.bind_ok]
    dsimp only [Out.bind] at hp ⊢
    obtain ⟨d, rfl⟩ := h2.suffix
    rcases loop_cases (u.length + 1) u (Loc.init.line + 1) [f] (Nat.lt_succ_self _) (fun hm => hz (by simp [hm])) with
      ⟨r, t, q1, q2⟩ | ⟨⟨l, m⟩, k, r, q1, q2, q3, q4, q5, q6⟩
    · rw [q2] at hp
      rw [q1]
      exact .inl ⟨_, rfl, _, hp⟩
    · rw [q2] at hp
      rw [q1]
      refine .inr ⟨k + 1, r, l.column, m, ?_, hp, ⟨⟨_, _, _, h2, q3⟩, q4⟩, q6⟩
      show Out.ok (Sum.inr (l.text (some m))) = _
      have hl : l = ⟨((k + 1 : Nat) : Int) + 1, l.column⟩ := by
        cases l; simp only [Loc.mk.injEq, and_true]; simp only [Loc.init] at q5; push_cast; omega
      exact congrArg (fun l : Loc => Out.ok (Sum.inr (l.text (some m)))) hl
  · rw [h1] at hp
    rw [h1, Out.bind_ok]
    obtain ⟨l, m⟩ := e
    refine .inr ⟨0, inp, l.column, m, ?_, hp, ⟨rfl, fun ⟨f, cls, u, q⟩ => h5 f cls u q⟩, by simpa [Loc.init] using h3, by simpa [Loc.init] using h4⟩
    show Out.ok (Sum.inr (l.text (some m))) = _
    have hl : l = ⟨((0 : Nat) : Int) + 1, l.column⟩ := by
      cases l; simp only [Loc.mk.injEq, and_true]; simp only [Loc.init] at h2; push_cast; omega
    exact congrArg (fun l : Loc => Out.ok (Sum.inr (l.text (some m)))) hl

theorem ruby_read_stops (inp : Str) (hz : NoNul inp) : (∃ t, parseText inp = .ok (.inl t)) ↔ ∀ k rest, ¬ Stops inp k rest := by
  rcases parse_cases inp hz with ⟨t, h1, rest, h2⟩ | ⟨k, rest, c, m, h1, h2, h3, -⟩
  · refine ⟨fun _ k r hs => ?_, fun _ => ⟨t, h1⟩⟩
    obtain ⟨f, message, cls, s, fs, q1, q2, q3, q4, q5, q6, q7, -⟩ := (C53_exact inp t rest).1 h2
    obtain ⟨p1, p2⟩ := hs
    have hh : Head inp f cls s := ⟨message, q1, q2, q3, q4, q5, q6⟩
    cases k with
    | zero =>
      have p1 : inp = r := p1
      subst p1
      exact p2 ⟨f, cls, s, hh⟩
    | succ k =>
      obtain ⟨f', cls', u, p, p'⟩ := p1
      obtain rfl := head_unique hh p
      obtain ⟨d, e⟩ := hh.suffix
      have hzs : NoNul s := fun hm => hz (by rw [e]; simp [hm])
      clear q1 q6 hh p h2 e
      induction p' generalizing fs with
      | zero s =>
        cases q7 with
        | done _ he =>
          refine p2 (.inl ?_)
          cases rest with
          | nil => rfl
          | cons c s => exact absurd (by rw [show c = '\x00' from he]; simp) hzs
        | more _ _ _ _ _ h _ => exact p2 (.inr ⟨_, _, _, rfl, h, .inr rfl⟩)
        | last _ _ _ h he =>
          refine p2 (.inr ⟨_, _, _, rfl, h, .inl ?_⟩)
          obtain ⟨d, rfl, -⟩ := h.suffix
          cases rest with
          | nil => rfl
          | cons c s => exact absurd (by rw [show c = '\x00' from he]; simp) hzs
      | @more k x u r g h _ ih =>
        generalize hs : c!"\tfrom " ++ x = y at q7
        cases q7 with
        | done _ he => subst hs; cases he
        | more s' _ _ _ _ h' h2' =>
          obtain rfl := List.append_cancel_left hs
          obtain ⟨-, e⟩ := h.unique h'
          obtain rfl := List.cons_injective e
          obtain ⟨d, rfl, -⟩ := h.suffix
          exact ih _ h2' p2 (fun hm => hzs (by simp [hm]))
        | last _ _ _ h' he =>
          obtain rfl := List.append_cancel_left hs
          obtain ⟨-, rfl⟩ := h.unique h'
          cases he
  · refine ⟨fun ⟨t, ht⟩ => ?_, fun h => absurd h3 (h k rest)⟩
    rw [h1] at ht
    cases ht

/-- C136, Ruby: reading stops nowhere exactly if the text is read as a stack trace. -/
theorem C136_ruby_read (inp : Str) (hz : NoNul inp) : (∃ t, parseText inp = .ok (.inl t)) ↔ ∀ k rest, ¬ Stops inp k rest := ruby_read_stops inp hz

/-- C136, Ruby: if reading stops, the message names the line after the records that were read. That is the line of the place if
every record is one line; no place is before it. -/
theorem C136_ruby (inp : Str) (hz : NoNul inp) (k : Nat) (rest : Str) (h : Stops inp k rest) :
    ∃ (column : Int) (message done : Str), parseText inp = .ok (.inr (Loc.text ⟨k + 1, column⟩ (some message))) ∧ -3 ≤ column ∧ column ≤ rest.length ∧
      inp = done ++ rest ∧ (locOf done).column = 0 ∧ k + 1 ≤ (locOf done).line ∧ (done.count '\n' = k → (locOf done).line = k + 1) := by
  rcases parse_cases inp hz with ⟨t, h1, rest, h2⟩ | ⟨k', rest', c, m, h1, h2, h3, h4, h5⟩
  · exact absurd h ((ruby_read_stops inp hz).1 ⟨t, h1⟩ _ _)
  · obtain ⟨rfl, rfl⟩ := h.unique h3
    obtain ⟨d, e, p1, p2⟩ := h.1.split
    refine ⟨c, m, d, h1, h4, h5, e, ?_, ?_, ?_⟩
    · rcases p2 with rfl | ⟨x, rfl⟩
      · rfl
      · simp [locOf]
    · simp only [locOf]; omega
    · intro hk; simp only [locOf, hk]; omega

/-- A backtrace whose second line is no frame: the header is read, and the message names line 2. -/
example : Stops c!"a.rb:1:in `f': m (E)\n\tfrom b\n" 1 c!"\tfrom b\n" := by
  refine ⟨⟨⟨some c!"a.rb", 1, false, some c!"f", 0, 0⟩, c!"E", c!"\tfrom b\n", ⟨c!"m ", ?_, by decide, by decide, by decide, by decide, .inr rfl⟩, .zero _⟩, ?_⟩
  · exact (C53_exact_frame _ _ _).1 (by decide +kernel)
  · rintro (h | ⟨x, f, t, e, h, -⟩)
    · cases h
    · have := (C53_exact_frame x f t).2 h
      obtain rfl : x = c!"b\n" := (List.append_cancel_left (as := c!"\tfrom ") e).symm
      rw [show parseFrame c!"b\n" = .ok none by decide +kernel] at this
      cases this

theorem text_of {inp : Str} {l : Loc} {m : Str} (h : parseL inp Loc.init = .ok (.inl (l, m))) : parseText inp = .ok (.inr (l.text (some m))) := by
  unfold parseText
  rw [h]
  rfl

example : parseText c!"a.rb:1:in `f': m (E)\n\tfrom b\n" =
    .ok (.inr (Loc.text ⟨2, 4⟩ (some c!"Unable to find ':in ' preceding the backtick character."))) := text_of (by decide +kernel)

/-- The column can be negative. -/
theorem C136_not_ruby_column : ∃ inp message, parseText inp = .ok (.inr (Loc.text ⟨1, -2⟩ (some message))) :=
  ⟨c!"ab`", c!"Topmost stacktrace frame not found: Unable to find ':in ' preceding the backtick character.", text_of (by decide +kernel)⟩

/-- A message of two lines is accepted, but then the line in the error message is one too small: reading stops in line 3. -/
theorem C136_not_ruby_line : ∃ done rest column message, parseText (done ++ rest) = .ok (.inr (Loc.text ⟨2, column⟩ (some message))) ∧
    Stops (done ++ rest) 1 rest ∧ (locOf done).line = 3 := by
  refine ⟨c!"a.rb:1:in `f': m\nn (E)\n", c!"\tfro", 0, c!"Frame header not found.", text_of (by decide +kernel), ⟨⟨⟨some c!"a.rb", 1, false, some c!"f", 0, 0⟩,
    c!"E", c!"\tfro", ⟨c!"m\nn ", ?_, by decide, by decide, by decide, by decide, .inr rfl⟩, .zero _⟩, ?_⟩, by decide +kernel⟩
  · exact (C53_exact_frame _ _ _).1 (by decide +kernel)
  · rintro (h | ⟨x, f, t, e, -⟩)
    · cases h
    · cases e

end Satyr.Text.Ruby
