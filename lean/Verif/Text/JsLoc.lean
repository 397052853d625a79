import Verif.Text.JsLines
import Verif.Text.JsLocModel
/-!
# C112: the place of an error in a JavaScript stack trace
-/
namespace Satyr.Text.Js
open Satyr.CStr Satyr.Frames

/-! ## The functions with locations read the same -/

/-- Forget the location. -/
def fst {α : Type} (x : Out (Option α × Loc)) : Out (Option α) := x.bind fun r => .ok r.1

theorem backColonL_eq (inp : Str) (lo c : Nat) : backColon inp lo c = (backColonL inp lo c).bind fun r => .ok r.getRight? := by
  induction c with
  | zero => rfl
  | succ c ih =>
    rw [backColon, backColonL]
    split
    · cases rd inp (c + 1) with
      | ok ch =>
        show (if ch ≠ ':' then _ else _) = Out.bind (if ch ≠ ':' then _ else _) _
        split
        · split
          · rfl
          · exact ih
        · rfl
      | abort => rfl
      | ub => rfl
    · rfl

theorem functionNameL_eq (inp : Str) (lo cursor : Nat) (l : Loc) : fst (functionNameL inp lo cursor l) = functionName inp lo cursor := by
  unfold functionNameL functionName
  obtain ⟨a, ha⟩ := skipCharCspan_fine (inp.drop lo) c!" \n"
  rw [ha, Out.bind_ok, Out.bind_ok]
  dsimp only
  split
  · rfl
  · obtain ⟨b, hb⟩ := skipCharCspan_fine a.2 c!"(\n"
    rw [hb, Out.bind_ok, Out.bind_ok]
    split <;> rfl

theorem positionL_eq (inp : Str) (lo cursor : Nat) (l : Loc) : fst (positionL inp lo cursor l) = position inp lo cursor := by
  unfold positionL position
  rw [backColonL_eq]
  rcases backColonL inp lo cursor with (t | t) | _ | _
  · rfl
  · simp only [Out.bind_ok, Out.bind, Sum.getRight?]
    by_cases h : t = lo
    · rw [if_pos h, if_pos h]; rfl
    rw [if_neg h, if_neg h]
    obtain ⟨⟨n, v, s⟩, hp⟩ := parseUint32_ok (inp.drop (t + 1))
    rw [hp, Out.bind_ok, Out.bind_ok]
    cases v with
    | none => rfl
    | some v =>
      dsimp only
      rw [backColonL_eq]
      rcases backColonL inp lo (t - 1) with (t2 | t2) | _ | _
      · rfl
      · simp only [Out.bind_ok, Out.bind, Sum.getRight?]
        by_cases h : t2 = lo
        · rw [if_pos h, if_pos h]; rfl
        rw [if_neg h, if_neg h]
        obtain ⟨⟨n, v, s⟩, hp⟩ := parseUint32_ok (inp.drop (t2 + 1))
        rw [hp, Out.bind_ok, Out.bind_ok]
        cases v with
        | none => rfl
        | some v =>
          dsimp only
          cases strndupTo inp lo t2 <;> rfl
      · rfl
      · rfl
  · rfl
  · rfl

theorem finishL_eq (inp : Str) (name : Option Str) (lo cursor : Nat) (l : Loc) :
    fst (finishL inp name lo cursor l) = finish inp name lo cursor := by
  unfold finishL finish
  rw [← positionL_eq inp lo cursor l]
  rcases positionL inp lo cursor l with ⟨_ | ⟨a, b, c⟩, l⟩ | _ | _
  · rfl
  · simp only [fst, Out.bind_ok, Out.bind]
    obtain ⟨a, ha⟩ := skipCharCspan_fine (inp.drop lo) c!"\n"
    rw [ha]; rfl
  · rfl
  · rfl

theorem parseAtL_eq (inp : Str) (lo : Nat) (l : Loc) : fst (parseAtL inp lo l) = parseAt inp lo := by
  unfold parseAtL parseAt
  cases backSpaces inp lo (lo + strchrnulI '\n' (inp.drop lo) - 1) with
  | ok c =>
    simp only [Out.bind_ok]
    cases rd inp c with
    | ok ch =>
      simp only [Out.bind_ok]
      split
      · rw [← functionNameL_eq inp lo c l]
        rcases functionNameL inp lo c l with ⟨_ | ⟨a, b, c⟩, l⟩ | _ | _
        · rfl
        · exact finishL_eq _ _ _ _ _
        · rfl
        · rfl
      · exact finishL_eq _ _ _ _ _
    | abort => rfl
    | ub => rfl
  | abort => rfl
  | ub => rfl

theorem parseFrameL_eq (inp : Str) (l : Loc) : fst (parseFrameL inp l) = parseFrame inp := by
  unfold parseFrameL parseFrame
  obtain ⟨a, ha⟩ := skipCharSpan_fine inp c!" "
  rw [ha, Out.bind_ok, Out.bind_ok]
  dsimp only
  split
  · rfl
  · obtain ⟨b, hb⟩ := skipCharSpan_fine (skipString a.2 c!"at ").2 c!" "
    rw [hb, Out.bind_ok, Out.bind_ok]
    exact parseAtL_eq _ _ _

theorem framesLoopL_eq : ∀ (fuel : Nat) (s : Str) (l : Loc) (acc : List JsFrame),
    fst (framesLoopL fuel s l acc) = framesLoop fuel s acc
  | 0, _, _, _ => rfl
  | fuel + 1, s, l, acc => by
    rw [framesLoopL, framesLoop]
    split
    · rfl
    · rw [← parseFrameL_eq s l]
      rcases parseFrameL s l with ⟨_ | ⟨f, t⟩, l⟩ | _ | _
      · rfl
      · simp only [fst, Out.bind_ok, Out.bind]
        obtain ⟨b, hb⟩ := skipChar_fine t (c := '\n') (by decide)
        rw [hb, Out.bind_ok, Out.bind_ok]
        by_cases hh : b.1 = false ∧ peek b.2 ≠ '\x00'
        · rw [if_pos hh, if_pos hh]
        · rw [if_neg hh, if_neg hh]
          exact framesLoopL_eq fuel _ _ _
      · rfl
      · rfl

theorem parseTraceL_eq (inp : Str) (l : Loc) : fst (parseTraceL inp l) = parseTrace inp := by
  unfold parseTraceL parseTrace
  obtain ⟨a, ha⟩ := parseCharCspan_fine inp c!":\n"
  rw [ha, Out.bind_ok, Out.bind_ok]
  dsimp only
  split
  · rfl
  split
  · rfl
  split
  · rfl
  generalize (skipString a.2 c!": ").2 = s
  generalize Loc.add l 0 _ = l1
  obtain ⟨b1, hb1⟩ := skipCharCspan_fine s ['\n']
  unfold skipToNextLine
  rw [hb1]
  simp only [Out.bind_ok]
  by_cases hn : peek b1.2 = '\n'
  · rw [if_pos hn, if_pos hn]
    obtain ⟨t, ht⟩ := advance_fine (peek_ne hn (by decide))
    rw [ht]
    simp only [Out.bind_ok, Bool.true_eq_false, if_false]
    rw [← framesLoopL_eq _ _ ⟨l1.line + 1, 0⟩]
    rcases framesLoopL (t.length + 1) t ⟨l1.line + 1, 0⟩ [] with ⟨_ | ⟨f, t⟩, l⟩ | _ | _ <;> rfl
  · rw [if_neg hn, if_neg hn]; rfl

/-! ## Where the functions stop -/

/-- The first `n` characters are in the first line. -/
def InLine (inp : Str) (n : Nat) : Prop := n ≤ inp.length ∧ '\n' ∉ inp.take n

theorem InLine.mono {inp : Str} {m n : Nat} (h : InLine inp n) (hm : m ≤ n) : InLine inp m :=
  ⟨by have := h.1; omega, fun hc => h.2 (by
    have : inp.take m = (inp.take n).take m := by rw [List.take_take, Nat.min_eq_left hm]
    rw [this] at hc
    exact List.mem_of_mem_take hc)⟩

/-- A location `n` columns further. -/
def col (l : Loc) (n : Nat) : Loc := ⟨l.line, l.column + n⟩

theorem add_col (l : Loc) (n : Nat) : l.add 0 n = col l n := by simp [Loc.add, col]

theorem add_col' (l : Loc) {z : Int} {n : Nat} (h : z = n) : l.add 0 z = col l n := by subst h; exact add_col l n

theorem col_col (l : Loc) (a b : Nat) : col (col l a) b = col l (a + b) := by simp [col, Int.add_assoc]

theorem backColonL_bound (inp : Str) (lo c : Nat) (hc : c ≤ inp.length) :
    ∃ r, backColonL inp lo c = .ok r ∧ (∀ t, r = .inr t → t ≤ c ∧ (lo ≤ c → lo ≤ t)) ∧ ∀ t, r = .inl t → lo < t ∧ t ≤ c := by
  induction c with
  | zero => exact ⟨.inr 0, rfl, (fun t ht => by cases ht; exact ⟨le_refl _, id⟩), fun t ht => by cases ht⟩
  | succ c ih =>
    rw [backColonL]
    have same : (∀ t, (.inr (c + 1) : Nat ⊕ Nat) = .inr t → t ≤ c + 1 ∧ (lo ≤ c + 1 → lo ≤ t)) ∧
      ∀ t, (.inr (c + 1) : Nat ⊕ Nat) = .inl t → lo < t ∧ t ≤ c + 1 :=
      ⟨(fun t ht => by cases ht; exact ⟨le_refl _, id⟩), fun t ht => by cases ht⟩
    by_cases h : c + 1 > lo
    · rw [if_pos h, rd_ok hc]
      show ∃ r, (if peek (inp.drop (c + 1)) ≠ ':' then _ else _) = _ ∧ _
      split
      · split
        · exact ⟨_, rfl, (fun t ht => by cases ht), fun t ht => by cases ht; exact ⟨h, le_refl _⟩⟩
        · obtain ⟨r, h1, h2, h3⟩ := ih (by omega)
          refine ⟨r, h1, fun t ht => ?_, fun t ht => ?_⟩
          · have := h2 t ht
            exact ⟨by omega, fun _ => this.2 (by omega)⟩
          · have := h3 t ht
            exact ⟨this.1, by omega⟩
      · exact ⟨_, rfl, same⟩
    · rw [if_neg h]
      exact ⟨_, rfl, same⟩

/-- If no position is read, the location is inside of the line. -/
theorem positionL_loc (inp : Str) (lo cursor : Nat) (l : Loc) (hl : InLine inp (cursor + 1))
    (h : lo ≤ cursor ∨ (cursor + 1 = lo ∧ IsDec (peek (inp.drop lo)) = false)) :
    ∃ r l', positionL inp lo cursor l = .ok (r, l') ∧ (r ≠ none → l' = l) ∧
      (r = none → ∃ n, InLine inp (lo + n) ∧ l' = col l n) := by
  have hc : cursor ≤ inp.length := by have := hl.1; omega
  have stay : InLine inp lo := hl.mono (by omega)
  unfold positionL
  rcases h with h | ⟨h, hd⟩
  · obtain ⟨r, h1, h2, h2'⟩ := backColonL_bound inp lo cursor hc
    rw [h1, Out.bind_ok]
    cases r with
    | inl t =>
      have := h2' t rfl
      refine ⟨_, _, rfl, fun h => absurd rfl h, fun _ => ⟨t - lo + 1, hl.mono (by omega), ?_⟩⟩
      exact add_col' l (by omega)
    | inr t =>
      have ht := h2 t rfl
      dsimp only
      split
      · exact ⟨_, _, rfl, fun h => absurd rfl h, fun _ => ⟨0, stay, by simp [col]⟩⟩
      · next hne =>
        have hlt : lo < t := by have := ht.2 h; omega
        obtain ⟨⟨n, v, s⟩, hp⟩ := parseUint32_ok (inp.drop (t + 1))
        rw [hp, Out.bind_ok]
        cases v with
        | none =>
          refine ⟨_, _, rfl, fun h => absurd rfl h, fun _ => ⟨t + 1 - lo, hl.mono (by omega), ?_⟩⟩
          exact add_col' l (by omega)
        | some v =>
          dsimp only
          obtain ⟨r, h3, h4, h4'⟩ := backColonL_bound inp lo (t - 1) (by omega)
          rw [h3, Out.bind_ok]
          cases r with
          | inl t2 =>
            have := h4' t2 rfl
            refine ⟨_, _, rfl, fun h => absurd rfl h, fun _ => ⟨t2 - lo + 1, hl.mono (by omega), ?_⟩⟩
            exact add_col' l (by omega)
          | inr t2 =>
            have ht2 := h4 t2 rfl
            have ht3 := ht2.2 (by omega)
            dsimp only
            split
            · exact ⟨_, _, rfl, fun h => absurd rfl h, fun _ => ⟨0, stay, by simp [col]⟩⟩
            · obtain ⟨⟨n2, v2, s2⟩, hp2⟩ := parseUint32_ok (inp.drop (t2 + 1))
              rw [hp2, Out.bind_ok]
              cases v2 with
              | none =>
                refine ⟨_, _, rfl, fun h => absurd rfl h, fun _ => ⟨t2 + 1 - lo, hl.mono (by omega), ?_⟩⟩
                exact add_col' l (by omega)
              | some v2 =>
                dsimp only
                rw [strndupTo, if_neg (by omega)]
                exact ⟨_, _, rfl, fun _ => rfl, fun h => by cases h⟩
  · have e : backColonL inp lo cursor = .ok (.inr cursor) := by
      cases cursor with
      | zero => rfl
      | succ c => rw [backColonL, if_neg (by omega)]
    rw [e, Out.bind_ok]
    dsimp only
    rw [if_neg (by omega), h, parseUint32_none hd]
    exact ⟨_, _, rfl, fun h => absurd rfl h, fun _ => ⟨0, stay, add_col' l (by omega)⟩⟩

/-- What is known about the outcome of a function that reads inside of one line: the location is that of a place in the line,
and if something is read, it is the place where the rest begins, which is the end of the line. -/
def Located (inp : Str) (lo : Nat) (l : Loc) (x : Out (Option (JsFrame × Str) × Loc)) : Prop :=
  ∃ r l', x = .ok (r, l') ∧ ∃ n, InLine inp (lo + n) ∧ l' = col l n ∧
    ∀ f rest, r = some (f, rest) → rest = inp.drop (lo + n) ∧ LineEnd rest

theorem cspan_line (inp : Str) (lo : Nat) (hl : InLine inp lo) :
    ∃ n, skipCharCspan (inp.drop lo) c!"\n" = .ok (n, inp.drop (lo + n)) ∧ InLine inp (lo + n) ∧ LineEnd (inp.drop (lo + n)) := by
  obtain ⟨a, b, hs, ha, hb, hk⟩ := span_split (inp.drop lo) c!"\n"
  have hd : inp.drop (lo + a.length) = b := by rw [← List.drop_drop, hs, List.drop_left]
  have hlen : inp.length - lo = a.length + b.length := by rw [← List.length_drop, hs, List.length_append]
  refine ⟨a.length, by rw [hk, hd], ⟨by have := hl.1; omega, ?_⟩, ?_⟩
  · rw [List.take_add, hs, List.take_left]
    intro h
    rcases List.mem_append.1 h with h | h
    · exact hl.2 h
    · exact ha _ h (by decide)
  · rw [hd]
    exact hb.imp id fun h => by simpa using h

theorem finishL_loc (inp : Str) (name : Option Str) (lo cursor : Nat) (l : Loc) (hl : InLine inp (cursor + 1))
    (h : lo ≤ cursor ∨ (cursor + 1 = lo ∧ IsDec (peek (inp.drop lo)) = false)) : Located inp lo l (finishL inp name lo cursor l) := by
  obtain ⟨r, l', h1, h2, h3⟩ := positionL_loc inp lo cursor l hl h
  unfold finishL
  rw [h1, Out.bind_ok]
  cases r with
  | none =>
    obtain ⟨n, hn, rfl⟩ := h3 rfl
    exact ⟨_, _, rfl, n, hn, rfl, fun _ _ h => by cases h⟩
  | some r =>
    obtain ⟨a, b, c⟩ := r
    obtain rfl := h2 (by simp)
    obtain ⟨n, hn, hin, he⟩ := cspan_line inp lo (hl.mono (by omega))
    dsimp only
    rw [hn, Out.bind_ok]
    refine ⟨_, _, rfl, n, hin, rfl, ?_⟩
    rintro f rest ⟨⟩
    exact ⟨rfl, he⟩

theorem functionNameL_loc (inp : Str) (lo cursor : Nat) (l : Loc) (hlo : InLine inp lo) :
    ∃ r l', functionNameL inp lo cursor l = .ok (r, l') ∧ (∃ n, InLine inp (lo + n) ∧ l' = col l n) ∧
      ∀ m lo' cur', r = some (m, lo', cur') → l' = col l (lo' - lo) ∧ lo ≤ lo' ∧ functionName inp lo cursor = .ok (some (m, lo', cur')) := by
  have he := functionNameL_eq inp lo cursor l
  revert he
  unfold functionNameL
  obtain ⟨a, b, hs, ha, hb, hk⟩ := span_split (inp.drop lo) c!" \n"
  rw [hk, Out.bind_ok]
  dsimp only
  split
  · exact fun _ => ⟨none, l, rfl, ⟨0, hlo, by simp [col]⟩, fun _ _ _ h => by cases h⟩
  · have hla : InLine inp (lo + a.length) := by
      have hlen : inp.length - lo = a.length + b.length := by rw [← List.length_drop, hs, List.length_append]
      refine ⟨by have := hlo.1; omega, ?_⟩
      rw [List.take_add, hs, List.take_left]
      intro h
      rcases List.mem_append.1 h with h | h
      · exact hlo.2 h
      · exact ha _ h (by decide)
    obtain ⟨a', b', hs', ha', hb', hk'⟩ := span_split b c!"(\n"
    rw [hk', Out.bind_ok]
    dsimp only
    split
    · exact fun _ => ⟨none, _, rfl, ⟨a.length, hla, add_col _ _⟩, fun _ _ _ h => by cases h⟩
    · next hn' =>
      intro he
      push Not at hn'
      obtain ⟨t, rfl⟩ : ∃ t, b' = '(' :: t := by
        cases b' with
        | nil => exact absurd hn'.2 (by decide)
        | cons c t => exact ⟨t, by rw [show c = '(' from hn'.2]⟩
      have hcol : (l.add 0 ↑a.length).add 0 (↑a'.length + 1) = col l (a.length + a'.length + 1) := by
        rw [add_col, add_col' _ (n := a'.length + 1) (by omega), col_col, Nat.add_assoc]
      refine ⟨_, _, rfl, ⟨a.length + a'.length + 1, ?_, hcol⟩, ?_⟩
      · have hd : inp.drop lo = (a ++ a' ++ ['(']) ++ t := by rw [hs, hs']; simp
        have hlen : inp.length - lo = (a ++ a' ++ ['(']).length + t.length := by rw [← List.length_drop, hd, List.length_append]
        have e : a.length + a'.length + 1 = (a ++ a' ++ ['(']).length := by simp; omega
        refine ⟨by have := hlo.1; omega, ?_⟩
        rw [e, List.take_add, hd, List.take_left]
        intro h
        simp only [List.mem_append, List.mem_singleton] at h
        rcases h with h | (h | h) | h
        · exact hlo.2 h
        · exact ha _ h (by decide)
        · exact ha' _ h (by decide)
        · exact absurd h (by decide)
      · intro m lo' cur' h
        refine ⟨?_, ?_, ?_⟩
        · rw [hcol]
          cases h
          congr 1; omega
        · cases h; omega
        · rw [← he]
          exact congrArg Out.ok h

theorem parseAtL_loc (inp : Str) (lo : Nat) (l : Loc) (h1 : 1 ≤ lo) (hin : InLine inp lo) : Located inp lo l (parseAtL inp lo l) := by
  have hlo := hin.1
  unfold parseAtL
  have hnl : strchrnulI '\n' (inp.drop lo) ≤ inp.length - lo := by
    unfold strchrnulI
    exact (takeWhile_length_le _).trans (by simp)
  have heol : InLine inp (lo + strchrnulI '\n' (inp.drop lo)) := by
    refine ⟨by omega, ?_⟩
    rw [List.take_add]
    intro h
    rcases List.mem_append.1 h with h | h
    · exact hin.2 h
    · unfold strchrnulI at h
      rw [take_takeWhile] at h
      simpa using List.mem_takeWhile_imp h
  generalize hk : strchrnulI '\n' (inp.drop lo) = k at hnl heol
  obtain ⟨c, hc, hc1, hc2, hc3, hc4⟩ := backSpaces_bound inp lo (lo + k - 1) (by omega)
  rw [hc, Out.bind_ok, rd_ok (by omega), Out.bind_ok]
  have hcl : InLine inp (c + 1) := heol.mono (by omega)
  by_cases hp : peek (inp.drop c) = ')'
  · rw [if_pos hp]
    obtain ⟨r, l', hr, hr1, hr2⟩ := functionNameL_loc inp lo c l hin
    rw [hr, Out.bind_ok]
    cases r with
    | none =>
      obtain ⟨n, hn, rfl⟩ := hr1
      exact ⟨_, _, rfl, n, hn, rfl, fun _ _ h => by cases h⟩
    | some r =>
      obtain ⟨m, lo', cur'⟩ := r
      obtain ⟨rfl, hle, hf⟩ := hr2 m lo' cur' rfl
      obtain ⟨r', hr', hr2'⟩ := functionName_ok inp lo c
      rw [hf] at hr'
      obtain rfl := Out.ok.inj hr'
      obtain ⟨rfl, a, b, hab, hna, hane, rfl⟩ := hr2' m lo' cur' rfl
      dsimp only
      have hdrop : inp.drop (lo + a.length) = '(' :: b := by rw [← List.drop_drop, hab, List.drop_left]
      have hak : a.length < k := by
        rw [← hk, hab]
        unfold strchrnulI
        have : (a ++ '(' :: b).takeWhile (fun x => decide (x ≠ '\n')) = a ++ '(' :: b.takeWhile (fun x => decide (x ≠ '\n')) := by
          rw [List.takeWhile_append_of_pos (fun x hx => by simp; rintro rfl; exact hna hx)]
          simp
        rw [this]; simp
      have hge : lo + a.length < c := by
        by_contra hcon
        rcases Nat.lt_or_ge c (lo + a.length) with hlt | hge
        · have := hc4 (lo + a.length) hlt (by omega)
          rw [hdrop] at this
          exact absurd this (by simp)
        · have : c = lo + a.length := by omega
          rw [this, hdrop] at hp
          exact absurd hp (by simp)
      have hcase : lo + a.length + 1 ≤ c - 1 ∨ (c - 1 + 1 = lo + a.length + 1 ∧ IsDec (peek (inp.drop (lo + a.length + 1))) = false) := by
        rcases Nat.lt_or_ge (lo + a.length + 1) c with hlt | hge2
        · exact .inl (by omega)
        · refine .inr ⟨by omega, ?_⟩
          have : lo + a.length + 1 = c := by omega
          rw [this, hp]; rfl
      obtain ⟨r, l', e1, n, e2, rfl, e4⟩ := finishL_loc inp (some m) _ (c - 1) (col l (lo + a.length + 1 - lo)) (hcl.mono (by omega)) hcase
      refine ⟨r, _, e1, lo + a.length + 1 - lo + n, ?_, col_col _ _ _, ?_⟩
      · have : lo + (lo + a.length + 1 - lo + n) = lo + a.length + 1 + n := by omega
        rw [this]; exact e2
      · have : lo + (lo + a.length + 1 - lo + n) = lo + a.length + 1 + n := by omega
        rw [this]; exact e4
  · rw [if_neg hp]
    refine finishL_loc inp none lo c l hcl ?_
    rcases Nat.eq_zero_or_pos k with h0 | h0
    · refine .inr ⟨by have := hc3 (by omega); omega, ?_⟩
      have : peek (inp.drop lo) = '\n' ∨ peek (inp.drop lo) = '\x00' := by
        rw [h0] at hk
        cases hd : inp.drop lo with
        | nil => exact .inr rfl
        | cons x t =>
          refine .inl ?_
          rw [hd] at hk
          unfold strchrnulI at hk
          by_contra hx
          rw [List.takeWhile_cons_of_pos (by simpa using hx)] at hk
          simp at hk
      rcases this with h | h <;> rw [h] <;> rfl
    · exact .inl (hc2 (by omega))

theorem parseFrameL_loc (inp : Str) (l : Loc) : Located inp 0 l (parseFrameL inp l) := by
  unfold parseFrameL
  rw [skipCharSpan_eq, Out.bind_ok]
  dsimp only
  have hab : inp = (inp.takeWhile fun c => c!" ".contains c) ++ inp.dropWhile (fun c => c!" ".contains c) :=
    List.takeWhile_append_dropWhile.symm
  have hsp : ∀ x ∈ inp.takeWhile (fun c => c!" ".contains c), x = ' ' := fun x hx => by
    simpa using List.mem_takeWhile_imp hx
  generalize (inp.takeWhile fun c => c!" ".contains c) = a at hab hsp
  generalize (inp.dropWhile fun c => c!" ".contains c) = b at hab
  have hna : '\n' ∉ a := fun h => absurd (hsp _ h) (by decide)
  have hla : InLine inp a.length := ⟨by rw [hab]; simp, by rw [hab, List.take_left]; exact hna⟩
  rcases skipString_cases b c!"at " with ⟨t, ht, hk⟩ | hk
  · rw [hk]
    dsimp only
    rw [if_neg (by decide), skipCharSpan_eq, Out.bind_ok]
    have htt : t = (t.takeWhile fun c => c!" ".contains c) ++ t.dropWhile (fun c => c!" ".contains c) :=
      List.takeWhile_append_dropWhile.symm
    have hts : ∀ x ∈ t.takeWhile (fun c => c!" ".contains c), x = ' ' := fun x hx => by
      simpa using List.mem_takeWhile_imp hx
    dsimp only
    generalize (t.takeWhile fun c => c!" ".contains c) = u at htt hts
    generalize (t.dropWhile fun c => c!" ".contains c) = v at htt
    have he : inp = (a ++ c!"at " ++ u) ++ v := by rw [hab, ht, htt]; simp
    have hlen : a.length + c!"at ".length + u.length = (a ++ c!"at " ++ u).length := by simp; omega
    have hin : InLine inp (a.length + c!"at ".length + u.length) := by
      rw [hlen]
      refine ⟨by rw [he]; simp, ?_⟩
      rw [he, List.take_left]
      intro h
      simp only [List.mem_append] at h
      rcases h with (h | h) | h
      · exact hna h
      · revert h; decide
      · exact absurd (hts _ h) (by decide)
    obtain ⟨r, l', e1, n, e2, rfl, e4⟩ := parseAtL_loc inp _ (col (col l a.length) (c!"at ".length + u.length)) (by simp; omega) hin
    refine ⟨r, col (col (col l a.length) (c!"at ".length + u.length)) n, ?_, a.length + (c!"at ".length + u.length) + n, ?_, ?_, ?_⟩
    · rw [add_col, add_col]; exact e1
    · rw [Nat.zero_add, ← Nat.add_assoc a.length]; exact e2
    · rw [col_col, col_col]
      congr 1
      omega
    · rw [Nat.zero_add, ← Nat.add_assoc a.length]; exact e4
  · rw [hk]
    exact ⟨none, _, rfl, a.length, by rw [Nat.zero_add]; exact hla, add_col _ _, fun _ _ h => by cases h⟩

/-! ## A frame is read from its line only -/

theorem rd_left {a T : Str} {i : Nat} (h : i < a.length) : rd (a ++ T) i = rd a i := by
  unfold rd
  rw [if_pos (by rw [List.length_append]; omega), if_pos (by omega), List.getD_eq_getElem?_getD, List.getElem?_append_left h, List.getD_eq_getElem?_getD]

theorem backSpaces_left {a T : Str} {lo c : Nat} (h : c < a.length) : backSpaces (a ++ T) lo c = backSpaces a lo c := by
  induction c with
  | zero => rfl
  | succ c ih => rw [backSpaces, backSpaces, rd_left h, ih (by omega)]

theorem backColon_left {a T : Str} {lo c : Nat} (h : c < a.length) : backColon (a ++ T) lo c = backColon a lo c := by
  induction c with
  | zero => rfl
  | succ c ih => rw [backColon, backColon, rd_left h, ih (by omega)]

theorem drop_left {a T : Str} {n : Nat} (h : n ≤ a.length) : (a ++ T).drop n = a.drop n ++ T := List.drop_append_of_le_length h

/-- The value that `sr_parse_uint32` reads. -/
theorem uint_left {x T : Str} (hT : LineEnd T) : ∃ n v s n' s', parseUint32 (x ++ T) = .ok (n, v, s) ∧ parseUint32 x = .ok (n', v, s') := by
  have e : (x ++ T).takeWhile IsDec = x.takeWhile IsDec := by
    rcases hT with rfl | hT
    · rw [List.append_nil]
    · cases T with
      | nil => rw [List.append_nil]
      | cons c t =>
        rw [peek_cons] at hT
        subst hT
        rw [List.takeWhile_append]
        split
        · next h =>
          have : x.takeWhile IsDec = x := (List.takeWhile_prefix _).eq_of_length h
          rw [this]; simp [IsDec]
        · rfl
  rw [C25_uint32, C25_uint32, e]
  dsimp only
  split
  · exact ⟨_, _, _, _, _, rfl, rfl⟩
  · exact ⟨_, _, _, _, _, rfl, rfl⟩

theorem cspan_left {x T set : Str} (hT : LineEnd T) (hset : '\n' ∈ set) :
    ∃ n d, skipCharCspan x set = .ok (n, d) ∧ skipCharCspan (x ++ T) set = .ok (n, d ++ T) := by
  obtain ⟨p, q, hs, hp, hq, hk⟩ := span_split x set
  refine ⟨p.length, q, hk, ?_⟩
  rw [hs, List.append_assoc]
  refine skipCspan_append hp ?_
  cases q with
  | nil => exact hT.imp id fun h => by rw [List.nil_append, h]; exact hset
  | cons c t => exact .inr (hq.resolve_left (by simp))

theorem peek_left {d T : Str} (hT : LineEnd T) {c : Char} (h1 : c ≠ '\n') (h2 : c ≠ '\x00') : peek (d ++ T) = c ↔ peek d = c := by
  cases d with
  | nil =>
    rcases hT with rfl | hT
    · rfl
    · rw [List.nil_append, hT]
      exact ⟨fun h => absurd h.symm h1, fun h => absurd h.symm h2⟩
  | cons x d => rfl

theorem functionName_left {a T : Str} (hT : LineEnd T) {lo c : Nat} (h : lo ≤ a.length) : functionName (a ++ T) lo c = functionName a lo c := by
  unfold functionName
  rw [drop_left h]
  obtain ⟨n, d, h1, h2⟩ := cspan_left (x := a.drop lo) (set := c!" \n") hT (by decide)
  have hn : n ≤ (a.drop lo).length := by
    have := (skipCharCspan_count (a.drop lo) c!" \n").post _ h1
    dsimp only at this
    omega
  rw [h1, h2, Out.bind_ok, Out.bind_ok]
  simp only [ne_eq, peek_left hT (c := ' ') (by decide) (by decide)]
  split
  · rfl
  obtain ⟨m, e, h3, h4⟩ := cspan_left (x := d) (set := c!"(\n") hT (by decide)
  rw [h3, h4, Out.bind_ok, Out.bind_ok]
  simp only [peek_left hT (c := '(') (by decide) (by decide)]
  unfold strndup
  rw [List.take_append_of_le_length hn]

theorem position_left {a T : Str} (hT : LineEnd T) {lo c : Nat} (hc : c < a.length) (hlo : lo ≤ a.length) :
    position (a ++ T) lo c = position a lo c := by
  unfold position
  rw [backColon_left hc]
  obtain ⟨r, hr, hr1⟩ := backColon_bound a lo c (by omega)
  rw [hr, Out.bind_ok, Out.bind_ok]
  cases r with
  | none => rfl
  | some t =>
    have ht := (hr1 t rfl).1
    dsimp only
    split
    · rfl
    rw [drop_left (by omega)]
    obtain ⟨n, v, s, n', s', h1, h2⟩ := uint_left (x := a.drop (t + 1)) hT
    rw [h1, h2, Out.bind_ok, Out.bind_ok]
    cases v with
    | none => rfl
    | some v =>
      dsimp only
      rw [backColon_left (by omega)]
      obtain ⟨r, hr, hr1⟩ := backColon_bound a lo (t - 1) (by omega)
      rw [hr, Out.bind_ok, Out.bind_ok]
      cases r with
      | none => rfl
      | some t2 =>
        have ht := (hr1 t2 rfl).1
        dsimp only
        split
        · rfl
        rw [drop_left (by omega)]
        obtain ⟨n, v, s, n', s', h1, h2⟩ := uint_left (x := a.drop (t2 + 1)) hT
        rw [h1, h2, Out.bind_ok, Out.bind_ok]
        cases v with
        | none => rfl
        | some v =>
          dsimp only
          unfold strndupTo strndup
          rw [drop_left hlo, List.take_append_of_le_length (by rw [List.length_drop]; omega)]

/-- The rest `T` of the text behind the line is passed on. -/
def carry (T : Str) (x : Out (Option (JsFrame × Str))) : Out (Option (JsFrame × Str)) :=
  x.bind fun r => .ok (r.map fun q => (q.1, q.2 ++ T))

theorem finish_left {a T : Str} (hT : LineEnd T) (name : Option Str) {lo c : Nat} (hc : c < a.length) (hlo : lo ≤ a.length) :
    finish (a ++ T) name lo c = carry T (finish a name lo c) := by
  unfold finish
  rw [position_left hT hc hlo]
  rcases position a lo c with (_ | ⟨x, y, z⟩) | _ | _
  · rfl
  · simp only [Out.bind_ok]
    rw [drop_left hlo]
    obtain ⟨n, d, h1, h2⟩ := cspan_left (x := a.drop lo) (set := c!"\n") hT (by decide)
    rw [h1, h2]
    rfl
  · rfl
  · rfl

theorem parseAt_left {a T : Str} (hT : LineEnd T) (ha : '\n' ∉ a) {lo : Nat} (hlo : lo ≤ a.length) (h0 : 0 < a.length) :
    parseAt (a ++ T) lo = carry T (parseAt a lo) := by
  unfold parseAt
  rw [drop_left hlo]
  have hda : '\n' ∉ a.drop lo := fun h => ha (List.mem_of_mem_drop h)
  rw [hT.nul _ hda, strchrnulI_all hda, List.length_drop, backSpaces_left (by omega)]
  obtain ⟨c, hc, hc1, -⟩ := backSpaces_bound a lo (lo + (a.length - lo) - 1) (by omega)
  rw [hc, Out.bind_ok, Out.bind_ok, rd_left (by omega), rd_ok (by omega), Out.bind_ok, Out.bind_ok]
  split
  · rw [functionName_left hT hlo]
    obtain ⟨r, hr, hr2⟩ := functionName_ok a lo c
    rw [hr, Out.bind_ok, Out.bind_ok]
    cases r with
    | none => rfl
    | some r =>
      obtain ⟨m, lo', cur'⟩ := r
      obtain ⟨rfl, p, q, hpq, -, -, rfl⟩ := hr2 m lo' cur' rfl
      have : a.length - lo = p.length + (q.length + 1) := by rw [← List.length_drop, hpq]; simp
      exact finish_left hT _ (by omega) (by omega)
  · exact finish_left hT _ (by omega) hlo

/-- A frame is read from its line, and the rest is what follows the line. -/
theorem parseFrame_left {a T : Str} (hT : LineEnd T) (ha : '\n' ∉ a) : parseFrame (a ++ T) = carry T (parseFrame a) := by
  unfold parseFrame
  obtain ⟨p, q, hs, hp, hq, hk⟩ : ∃ p q, a = p ++ q ∧ (∀ c ∈ p, c ∈ c!" ") ∧ peek q ∉ c!" " ∧ skipCharSpan a c!" " = .ok (p.length, q) := by
    rw [skipCharSpan_eq]
    refine ⟨_, _, List.takeWhile_append_dropWhile.symm, fun c hc => List.contains_iff_mem.1 (List.mem_takeWhile_imp hc), ?_, rfl⟩
    cases h : a.dropWhile (fun c => c!" ".contains c) with
    | nil => decide
    | cons x t =>
      have := List.head_dropWhile_not (l := a) (fun c => c!" ".contains c) (by rw [h]; simp)
      simp only [h] at this
      exact fun hx => absurd (List.contains_iff_mem.2 hx) (by simpa using this)
  have hk2 : skipCharSpan (a ++ T) c!" " = .ok (p.length, q ++ T) := by
    rw [hs, List.append_assoc]
    refine skipSpan_append hp fun h => hq ?_
    have h' : peek (q ++ T) = ' ' := by simpa using h
    rw [(peek_left hT (by decide) (by decide)).1 h']; decide
  rw [hk, hk2, Out.bind_ok, Out.bind_ok]
  dsimp only
  rcases skipString_cases q c!"at " with ⟨t, ht, hkq⟩ | hkq
  · have hkq2 : skipString (q ++ T) c!"at " = (c!"at ".length, t ++ T) := by
      rw [ht, List.append_assoc, skipString_append]
    rw [hkq, hkq2]
    dsimp only
    rw [if_neg (by decide), if_neg (by decide)]
    obtain ⟨u, v, hs', hu, hv, hku⟩ : ∃ u v, t = u ++ v ∧ (∀ c ∈ u, c ∈ c!" ") ∧ peek v ∉ c!" " ∧ skipCharSpan t c!" " = .ok (u.length, v) := by
      rw [skipCharSpan_eq]
      refine ⟨_, _, List.takeWhile_append_dropWhile.symm, fun c hc => List.contains_iff_mem.1 (List.mem_takeWhile_imp hc), ?_, rfl⟩
      cases h : t.dropWhile (fun c => c!" ".contains c) with
      | nil => decide
      | cons x t' =>
        have := List.head_dropWhile_not (l := t) (fun c => c!" ".contains c) (by rw [h]; simp)
        simp only [h] at this
        exact fun hx => absurd (List.contains_iff_mem.2 hx) (by simpa using this)
    have hku2 : skipCharSpan (t ++ T) c!" " = .ok (u.length, v ++ T) := by
      rw [hs', List.append_assoc]
      refine skipSpan_append hu fun h => hv ?_
      have h' : peek (v ++ T) = ' ' := by simpa using h
      rw [(peek_left hT (by decide) (by decide)).1 h']; decide
    rw [hku, hku2, Out.bind_ok, Out.bind_ok]
    have hl : a.length = p.length + (3 + (u.length + v.length)) := by rw [hs, ht, hs']; simp; omega
    exact parseAt_left hT ha (by simp; omega) (by omega)
  · have hq0 : ¬ ∃ b, q = c!"at " ++ b := by
      rintro ⟨b, rfl⟩
      rw [skipString_append] at hkq
      exact absurd (congrArg Prod.fst hkq) (by simp)
    have hkq2 : skipString (q ++ T) c!"at " = (0, q ++ T) := by
      rcases skipString_cases (q ++ T) c!"at " with ⟨b, hb, -⟩ | h
      · exfalso
        match q, hT with
        | [], .inl h => subst h; simp at hb
        | [], .inr h => rw [List.nil_append] at hb; rw [hb] at h; exact absurd h (by simp)
        | [x], .inl h => subst h; simp at hb
        | [x], .inr h =>
          simp at hb
          rw [hb.2] at h; exact absurd h (by simp)
        | [x, y], .inl h => subst h; simp at hb
        | [x, y], .inr h =>
          simp at hb
          rw [hb.2.2] at h; exact absurd h (by simp)
        | x :: y :: z :: q, _ =>
          simp at hb
          exact hq0 ⟨q, by simp [hb]⟩
      · exact h
    rw [hkq, hkq2]
    rfl

/-! ## C112 -/

/-- A line with a frame. -/
def IsFrame (line : Str) : Prop := ∃ f, FrameLine line f

theorem isFrame_of {l : Str} (hl : '\n' ∉ l) {f : JsFrame} (h : parseFrame l = .ok (some (f, []))) : IsFrame l := ⟨f, ((C51_lines l hl f []).1 h).2⟩

/-- The first line: the type of the exception, a colon and a blank, and the message. -/
def Header (line name : Str) : Prop := ∃ message, line = name ++ c!": " ++ message ∧ name ≠ [] ∧ ':' ∉ name

def IsHeader (line : Str) : Prop := ∃ name, Header line name

/-- Lines with their frames; the last line may be empty. -/
inductive Frames : List Str → List JsFrame → Prop
  | last : Frames [[]] []
  | one {l : Str} {f : JsFrame} : FrameLine l f → Frames [l] [f]
  | cons {l l2 : Str} {ls : List Str} {f : JsFrame} {fs : List JsFrame} : FrameLine l f → Frames (l2 :: ls) fs → Frames (l :: l2 :: ls) (f :: fs)

/-- The line `k` is the first that is not a frame. -/
def FirstBad (lines : List Str) (k : Nat) (line : Str) : Prop :=
  lines[k]? = some line ∧ ¬ IsFrame line ∧ ¬ (line = [] ∧ k + 1 = lines.length) ∧ ∀ j, j < k → ∀ l, lines[j]? = some l → IsFrame l

theorem Frames.all {ls : List Str} {fs : List JsFrame} (h : Frames ls fs) : ∀ k line, ls[k]? = some line → IsFrame line ∨ (line = [] ∧ k + 1 = ls.length) := by
  induction h with
  | last =>
    intro k line hk
    cases k with
    | zero => simp at hk; exact .inr ⟨hk, rfl⟩
    | succ k => simp at hk
  | one h =>
    intro k line hk
    cases k with
    | zero => simp at hk; exact .inl (hk ▸ ⟨_, h⟩)
    | succ k => simp at hk
  | cons h _ ih =>
    intro k line hk
    cases k with
    | zero => simp at hk; exact .inl (hk ▸ ⟨_, h⟩)
    | succ k =>
      rcases ih k line (by simpa using hk) with h | ⟨h, h'⟩
      · exact .inl h
      · exact .inr ⟨h, by simp at h' ⊢; omega⟩

theorem FrameLine.unique {l : Str} (hl : '\n' ∉ l) {f g : JsFrame} (h1 : FrameLine l f) (h2 : FrameLine l g) : f = g := by
  have e1 := (C51_lines l hl f []).2 ⟨rfl, h1⟩
  rw [(C51_lines l hl g []).2 ⟨rfl, h2⟩] at e1
  exact (Prod.mk.inj (Option.some.inj (Out.ok.inj e1))).1.symm

theorem FrameLine.nonempty {f : JsFrame} : ¬ FrameLine [] f := fun h => by
  have := (C51_lines [] (by simp) f []).2 ⟨rfl, h⟩
  rw [show parseFrame [] = .ok none by decide +kernel] at this
  cases this

theorem Frames.unique {ls : List Str} (hl : ∀ x ∈ ls, '\n' ∉ x) {fs gs : List JsFrame} (h1 : Frames ls fs) (h2 : Frames ls gs) : fs = gs := by
  induction h1 generalizing gs with
  | last =>
    cases h2 with
    | last => rfl
    | one h => exact absurd h FrameLine.nonempty
  | one h =>
    cases h2 with
    | last => exact absurd h FrameLine.nonempty
    | one h' => rw [h.unique (hl _ (by simp)) h']
  | cons h _ ih =>
    cases h2 with
    | cons h' h2 => rw [h.unique (hl _ (by simp)) h', ih (fun x hx => hl x (List.mem_cons_of_mem _ hx)) h2]

theorem FirstBad.not_frames {ls : List Str} {k : Nat} {bad : Str} (h : FirstBad ls k bad) (fs : List JsFrame) : ¬ Frames ls fs := fun hf => by
  rcases hf.all k bad h.1 with h1 | h1
  · exact h.2.1 h1
  · exact h.2.2.1 h1

/-- The rest of a text after its first line. -/
def tailText (ls : List Str) : Str := ls.flatMap fun l => '\n' :: l

theorem tailText_end (ls : List Str) : LineEnd (tailText ls) := by
  cases ls with
  | nil => exact .inl rfl
  | cons l ls => exact .inr rfl

theorem joinLines_eq (l : Str) (ls : List Str) : joinLines l ls = l ++ tailText ls := rfl

theorem inLine_le {l T : Str} (hT : LineEnd T) {n : Nat} (h : InLine (l ++ T) n) : n ≤ l.length := by
  by_contra hc
  push Not at hc
  rcases hT with rfl | hT
  · have := h.1
    rw [List.append_nil] at this
    omega
  · cases T with
    | nil =>
      have := h.1
      rw [List.append_nil] at this
      omega
    | cons c t =>
      rw [peek_cons] at hT
      subst hT
      apply h.2
      rw [List.take_append, List.take_of_length_le (by omega)]
      obtain ⟨m, hm⟩ : ∃ m, n - l.length = m + 1 := ⟨n - l.length - 1, by omega⟩
      rw [hm]
      simp

/-- A line is a frame or it is not read as one. -/
theorem line_cases {l : Str} (hl : '\n' ∉ l) : (∃ f, parseFrame l = .ok (some (f, []))) ∨ parseFrame l = .ok none := by
  obtain ⟨r, l', h1, n, h2, h3, h4⟩ := parseFrameL_loc l Loc.init
  have e := parseFrameL_eq l Loc.init
  rw [h1] at e
  cases r with
  | none => exact .inr e.symm
  | some r =>
    obtain ⟨f, rest⟩ := r
    obtain ⟨h5, h6⟩ := h4 f rest rfl
    refine .inl ⟨f, ?_⟩
    have : rest = [] := by
      rcases h6 with h | h
      · exact h
      · exfalso
        cases rest with
        | nil => exact absurd h (by decide)
        | cons c t =>
          rw [peek_cons] at h
          have : c ∈ l.drop (0 + n) := by rw [← h5]; simp
          rw [h] at this
          exact hl (List.mem_of_mem_drop this)
    rw [← this]
    exact e.symm

theorem framesLoopL_lines : ∀ (ls : List Str) (l : Str) (fuel : Nat) (line : Int) (acc : List JsFrame),
    (∀ x ∈ l :: ls, '\n' ∉ x) → NoNul (joinLines l ls) → (joinLines l ls).length < fuel →
    (∃ fs, Frames (l :: ls) fs ∧ ∃ s l', framesLoopL fuel (joinLines l ls) ⟨line, 0⟩ acc = .ok (some (acc ++ fs, s), l')) ∨
    ∃ k bad, FirstBad (l :: ls) k bad ∧ ∃ column : Nat, column ≤ bad.length ∧
      framesLoopL fuel (joinLines l ls) ⟨line, 0⟩ acc = .ok (none, ⟨line + k, column⟩)
  | _, _, 0, _, _, _, _, hf => by omega
  | ls, l, fuel + 1, line, acc, hl, hn, hf => by
    rw [framesLoopL]
    by_cases h0 : peek (joinLines l ls) = '\x00'
    · rw [if_pos h0]
      have : joinLines l ls = [] := by
        cases h : joinLines l ls with
        | nil => rfl
        | cons c t =>
          rw [h, peek_cons] at h0
          rw [h, h0] at hn
          exact absurd (by simp) hn
      rw [joinLines_eq] at this
      obtain ⟨h1, h2⟩ := List.append_eq_nil_iff.1 this
      have h3 : ls = [] := by
        cases ls with
        | nil => rfl
        | cons a b => simp [tailText] at h2
      subst h1 h3
      exact .inl ⟨[], .last, [], _, by rw [List.append_nil]; rfl⟩
    rw [if_neg h0]
    have hl0 : '\n' ∉ l := hl l (by simp)
    obtain ⟨r, l', h1, n, h2, h3, h4⟩ := parseFrameL_loc (joinLines l ls) ⟨line, 0⟩
    rw [Nat.zero_add] at h2
    have hle : n ≤ l.length := inLine_le (tailText_end ls) h2
    have e := parseFrameL_eq (joinLines l ls) ⟨line, 0⟩
    rw [joinLines_eq, parseFrame_left (tailText_end ls) hl0, ← joinLines_eq, h1] at e
    rw [h1, Out.bind_ok]
    rcases line_cases hl0 with ⟨f, hf1⟩ | hf1
    · rw [hf1] at e
      have e' : r = some (f, tailText ls) := Out.ok.inj e
      subst e'
      dsimp only
      cases ls with
      | nil =>
        have : skipChar (tailText []) '\n' = .ok (false, []) := rfl
        rw [this, Out.bind_ok]
        dsimp only
        rw [if_neg (by decide)]
        obtain ⟨m, rfl⟩ : ∃ m, fuel = m + 1 := ⟨fuel - 1, by
          have : 0 < (joinLines l []).length := List.length_pos_iff.2 (by rintro h; rw [h] at h0; exact h0 rfl)
          omega⟩
        rw [framesLoopL, if_pos (show peek [] = '\x00' from rfl)]
        exact .inl ⟨[f], .one ((C51_lines l hl0 f []).1 hf1).2, [], _, rfl⟩
      | cons l2 ls =>
        have : skipChar (tailText (l2 :: ls)) '\n' = .ok (true, joinLines l2 ls) := by
          show skipChar ('\n' :: joinLines l2 ls) '\n' = _
          exact skipChar_cons (by decide) _
        rw [this, Out.bind_ok]
        dsimp only
        rw [if_neg (by simp), h3]
        have hn2 : NoNul (joinLines l2 ls) := fun h => hn (by
          show '\x00' ∈ l ++ '\n' :: joinLines l2 ls
          simp [h])
        have hlen : (joinLines l (l2 :: ls)).length = l.length + ((joinLines l2 ls).length + 1) := by
          show (l ++ '\n' :: joinLines l2 ls).length = _
          simp
        rcases framesLoopL_lines ls l2 fuel (line + 1) (acc ++ [f]) (fun x hx => hl x (by simp at hx ⊢; tauto)) hn2 (by omega) with
          ⟨fs, ha, r, l', hr⟩ | ⟨k, bad, ⟨b1, b2, b3, b4⟩, column, hc, hr⟩
        · refine .inl ⟨f :: fs, .cons ((C51_lines l hl0 f []).1 hf1).2 ha, r, l', ?_⟩
          rw [List.append_assoc] at hr
          exact hr
        · refine .inr ⟨k + 1, bad, ⟨by simpa using b1, b2, fun h => b3 ⟨h.1, by simpa using h.2⟩, fun j hj x hx => ?_⟩, column, hc, ?_⟩
          · cases j with
            | zero => simp at hx; exact hx ▸ isFrame_of hl0 hf1
            | succ j => exact b4 j (by omega) x (by simpa using hx)
          · have : line + 1 + (k : Int) = line + ((k + 1 : Nat) : Int) := by omega
            rw [← this]
            exact hr
    · rw [hf1] at e
      have e' : r = none := Out.ok.inj e
      subst e'
      refine .inr ⟨0, l, ⟨rfl, ?_, ?_, fun j hj => by omega⟩, n, hle, ?_⟩
      · rintro ⟨f, hf⟩
        rw [(C51_lines l hl0 f []).2 ⟨rfl, hf⟩] at hf1
        cases hf1
      · rintro ⟨h, h'⟩
        have : ls = [] := by
          cases ls with
          | nil => rfl
          | cons a b => simp at h'
        subst h this
        exact h0 rfl
      · rw [h3]
        simp [col]

/-- What the reader of a JavaScript stack trace returns for a text of the lines `l0` and `ls`. -/
theorem parseTraceL_lines (l0 : Str) (ls : List Str) (hl : ∀ x ∈ l0 :: ls, '\n' ∉ x) (hn : NoNul (joinLines l0 ls)) :
    (∃ name fs, Header l0 name ∧ Frames ls fs ∧ ∃ s l, parseTraceL (joinLines l0 ls) Loc.init = .ok (some (⟨some name, fs, 1⟩, s), l)) ∨
    ((¬ IsHeader l0 ∨ ls = []) ∧ ∃ column : Nat, column ≤ l0.length ∧ parseTraceL (joinLines l0 ls) Loc.init = .ok (none, ⟨1, column⟩)) ∨
    (IsHeader l0 ∧ ∃ k bad, FirstBad ls k bad ∧ ∃ column : Nat, column ≤ bad.length ∧
      parseTraceL (joinLines l0 ls) Loc.init = .ok (none, ⟨2 + k, column⟩)) := by
  have hl0 : '\n' ∉ l0 := hl l0 (by simp)
  unfold parseTraceL
  obtain ⟨a, b, hs, ha, hb, -⟩ := span_split l0 c!":\n"
  have hsp : parseCharCspan (joinLines l0 ls) c!":\n" = .ok (if a = [] then none else some a, b ++ tailText ls) := by
    rw [joinLines_eq, hs, List.append_assoc, parseCharCspan_eq]
    have hb' : b ++ tailText ls = [] ∨ peek (b ++ tailText ls) ∈ c!":\n" := by
      cases b with
      | nil => exact (tailText_end ls).imp id fun h => by rw [List.nil_append, h]; decide
      | cons c t => exact .inr (hb.resolve_left (by simp))
    have h1 := takeWhile_cspan ha hb'
    rw [h1.1, h1.2]
  rw [hsp, Out.bind_ok]
  dsimp only
  have nohead : peek b ≠ ':' → ¬ IsHeader l0 := by
    rintro hp ⟨name, message, h1, h2, h3⟩
    apply hp
    have hna : '\n' ∉ name := fun h => hl0 (by rw [h1]; simp [h])
    have : a = name := by
      have e1 := (takeWhile_cspan (set := c!":\n") ha hb).1
      have e2 := takeWhile_cspan (a := name) (b := c!": " ++ message) (set := c!":\n")
        (fun c hc => by simp; exact ⟨by rintro rfl; exact h3 hc, by rintro rfl; exact hna hc⟩) (.inr (by simp))
      rw [← hs] at e1
      rw [h1, List.append_assoc, e2.1] at e1
      exact e1.symm
    rw [hs, this, List.append_assoc] at h1
    rw [List.append_cancel_left h1]
    rfl
  by_cases hp : peek b = ':'
  · rw [if_neg (by rw [(peek_left (tailText_end ls) (by decide) (by decide)).2 hp]; simp)]
    by_cases ha0 : a = []
    · rw [if_pos ha0, if_pos rfl]
      refine .inr (.inl ⟨.inl ?_, 0, Nat.zero_le _, rfl⟩)
      rintro ⟨name, message, h1, h2, h3⟩
      cases name with
      | nil => exact h2 rfl
      | cons x name =>
        rw [hs, ha0, List.nil_append] at h1
        rw [h1] at hp
        exact h3 (by rw [show x = ':' from hp]; simp)
    · rw [if_neg ha0, if_neg (by simp)]
      have hca : ':' ∉ a := fun h => ha _ h (by decide)
      rcases skipString_cases b c!": " with ⟨m, hm, -⟩ | hk
      · have hh : IsHeader l0 := ⟨a, m, by rw [hs, hm]; simp, ha0, hca⟩
        have hk : skipString (b ++ tailText ls) c!": " = (2, m ++ tailText ls) := by
          rw [hm, List.append_assoc, skipString_append]; rfl
        rw [hk]
        dsimp only
        rw [if_neg (by decide)]
        have hnm : '\n' ∉ m := fun h => hl0 (by rw [hs, hm]; simp [h])
        have hadd : Loc.init.add 0 1 = locOf ['-'] := by decide
        have hlen : 1 ≤ a.length := List.length_pos_iff.2 ha0
        rw [hadd]
        cases ls with
        | nil =>
          rw [show tailText [] = [] from rfl, List.append_nil, (C28_next_line ['-'] m [] hnm).2, Out.bind_ok]
          refine .inr (.inl ⟨.inr rfl, (['-'] ++ m).length, ?_, ?_⟩)
          · rw [hs, hm]; simp; omega
          · have hna : '\n' ∉ ['-'] ++ m := fun h => by
              rcases List.mem_append.1 h with h | h
              · exact absurd h (by decide)
              · exact hnm h
            dsimp only
            rw [if_pos rfl]
            unfold locOf
            rw [List.count_eq_zero.2 hna, List.takeWhile_eq_self_iff.2]
            · simp
            · intro c hc; simp; rintro rfl; exact hna (by simpa [or_comm] using hc)
        | cons l ls =>
          have e : m ++ tailText (l :: ls) = m ++ '\n' :: joinLines l ls := rfl
          rw [e, (C28_next_line ['-'] m _ hnm).1, Out.bind_ok]
          dsimp only
          rw [if_neg (by decide)]
          have hloc : locOf (['-'] ++ m ++ ['\n']) = ⟨2, 0⟩ := by
            have hna : '\n' ∉ ['-'] ++ m := fun h => by
              rcases List.mem_append.1 h with h | h
              · exact absurd h (by decide)
              · exact hnm h
            unfold locOf
            rw [List.count_append, List.count_eq_zero.2 hna]
            simp
          rw [hloc]
          have hn2 : NoNul (joinLines l ls) := fun h => hn (by
            show '\x00' ∈ l0 ++ '\n' :: joinLines l ls
            simp [h])
          rcases framesLoopL_lines ls l _ 2 [] (fun x hx => hl x (by simp at hx ⊢; tauto)) hn2 (Nat.lt_succ_self _) with
            ⟨fs, ha, s, l', hr⟩ | ⟨k, bad, hbad, column, hc, hr⟩
          · rw [hr, Out.bind_ok]
            exact .inl ⟨a, fs, ⟨m, by rw [hs, hm]; simp, ha0, hca⟩, ha, _, _, rfl⟩
          · rw [hr, Out.bind_ok]
            exact .inr (.inr ⟨hh, k, bad, hbad, column, hc, rfl⟩)
      · have hk2 : skipString (b ++ tailText ls) c!": " = (0, b ++ tailText ls) ∧ ¬ IsHeader l0 := by
          have hb0 : ¬ ∃ m, b = c!": " ++ m := by
            rintro ⟨m, rfl⟩
            rw [skipString_append] at hk
            exact absurd (congrArg Prod.fst hk) (by simp)
          refine ⟨?_, ?_⟩
          · rcases skipString_cases (b ++ tailText ls) c!": " with ⟨m, hm, -⟩ | h
            · exfalso
              match b, hp with
              | [x], _ =>
                simp at hm
                rcases tailText_end ls with h | h
                · rw [h] at hm; simp at hm
                · rw [hm.2] at h; exact absurd h (by simp)
              | x :: y :: t, _ =>
                simp at hm
                exact hb0 ⟨t, by simp [hm]⟩
            · exact h
          · rintro ⟨name, message, h1, h2, h3⟩
            apply hb0
            have : a = name := by
              have hna : '\n' ∉ name := fun h => hl0 (by rw [h1]; simp [h])
              have e1 := (takeWhile_cspan (set := c!":\n") ha hb).1
              have e2 := takeWhile_cspan (a := name) (b := c!": " ++ message) (set := c!":\n")
                (fun c hc => by simp; exact ⟨by rintro rfl; exact h3 hc, by rintro rfl; exact hna hc⟩) (.inr (by simp))
              rw [← hs] at e1
              rw [h1, List.append_assoc, e2.1] at e1
              exact e1.symm
            rw [hs, this, List.append_assoc] at h1
            exact ⟨message, List.append_cancel_left h1⟩
        rw [hk2.1]
        dsimp only
        rw [if_pos rfl]
        refine .inr (.inl ⟨.inl hk2.2, 1, ?_, rfl⟩)
        rw [hs, List.length_append]
        exact Nat.le_add_right_of_le (List.length_pos_iff.2 ha0)
  · rw [if_pos (by rw [ne_eq, peek_left (tailText_end ls) (by decide) (by decide)]; exact hp)]
    exact .inr (.inl ⟨.inl (nohead hp), 0, Nat.zero_le _, rfl⟩)

/-- What is said about the place of an error. -/
def errorText (line column : Nat) : Str :=
  c!"Line " ++ natDec line ++ c!", column " ++ natDec column ++ c!": The stacktrace does not match any JavaScript dialect"

theorem text_nat (line column : Nat) :
    Loc.text ⟨line, column⟩ (some c!"The stacktrace does not match any JavaScript dialect") = errorText line column := by
  unfold Loc.text errorText intDec
  simp only [Int.natAbs_natCast, if_neg (Int.not_lt.2 (Int.natCast_nonneg _))]
  simp

theorem Header.unique {l a b : Str} (h1 : Header l a) (h2 : Header l b) : a = b := by
  obtain ⟨m, e1, -, h1⟩ := h1
  obtain ⟨n, e2, -, h2⟩ := h2
  have : a ++ ':' :: (' ' :: m) = b ++ ':' :: (' ' :: n) := by
    rw [e1] at e2
    simpa using e2
  exact (first_unique this h1 h2).1

/-- C112, C69: a text is read as a JavaScript stack trace if and only if its first line is a header and the others are frames (the
last may be empty, but there must be a second line); the stack trace has the frames of the lines in their order. -/
theorem C112_js_read (l0 : Str) (ls : List Str) (hl : ∀ x ∈ l0 :: ls, '\n' ∉ x) (hn : NoNul (joinLines l0 ls)) (t : JsTrace) :
    parseText (joinLines l0 ls) = .ok (.inl t) ↔ ∃ name fs, Header l0 name ∧ Frames ls fs ∧ t = ⟨some name, fs, 1⟩ := by
  unfold parseText
  rcases parseTraceL_lines l0 ls hl hn with ⟨name, fs, h1, h2, s, l, h4⟩ | ⟨h1, c, h2, h3⟩ | ⟨h1, k, bad, h2, c, h3, h4⟩
  · rw [h4, Out.bind_ok]
    constructor
    · intro h
      exact ⟨name, fs, h1, h2, (Sum.inl.inj (Out.ok.inj h)).symm⟩
    · rintro ⟨name', fs', h1', h2', rfl⟩
      rw [h1.unique h1', h2.unique (fun x hx => hl x (List.mem_cons_of_mem _ hx)) h2']
  · rw [h3, Out.bind_ok]
    refine ⟨fun ht => (by cases ht), ?_⟩
    rintro ⟨name, fs, h, hf, -⟩
    rcases h1 with h1 | rfl
    · exact absurd ⟨name, h⟩ h1
    · cases hf
  · rw [h4, Out.bind_ok]
    refine ⟨fun ht => (by cases ht), ?_⟩
    rintro ⟨name, fs, h, hf, -⟩
    exact absurd hf (h2.not_frames fs)

/-- C112: otherwise the message says where the error is: in the first line if it is no header or the only line, else in the first
line that is no frame; the column is one of that line. -/
theorem C112_js_error (l0 : Str) (ls : List Str) (hl : ∀ x ∈ l0 :: ls, '\n' ∉ x) (hn : NoNul (joinLines l0 ls)) (m : Str)
    (h : parseText (joinLines l0 ls) = .ok (.inr m)) :
    ∃ line column : Nat, m = errorText line column ∧
      ((line = 1 ∧ (¬ IsHeader l0 ∨ ls = []) ∧ column ≤ l0.length) ∨
       (IsHeader l0 ∧ ∃ k bad, FirstBad ls k bad ∧ line = k + 2 ∧ column ≤ bad.length)) := by
  unfold parseText at h
  rcases parseTraceL_lines l0 ls hl hn with ⟨name, fs, h1, h2, s, l, h4⟩ | ⟨h1, c, h2, h3⟩ | ⟨h1, k, bad, h2, c, h3, h4⟩
  · rw [h4, Out.bind_ok] at h
    cases h
  · rw [h3, Out.bind_ok] at h
    refine ⟨1, c, ?_, .inl ⟨rfl, h1, h2⟩⟩
    rw [← text_nat]
    exact (Sum.inr.inj (Out.ok.inj h)).symm
  · rw [h4, Out.bind_ok] at h
    refine ⟨k + 2, c, ?_, .inr ⟨h1, k, bad, h2, rfl, h3⟩⟩
    rw [← text_nat]
    have e := (Sum.inr.inj (Out.ok.inj h)).symm
    rw [e]
    congr 2
    omega

/-- The hypotheses and the outcome for a text whose third line is no frame. -/
example : joinLines c!"E: m" [c!"  at f (a.js:1:2)", c!"  in g"] = c!"E: m\n  at f (a.js:1:2)\n  in g" ∧
    parseText c!"E: m\n  at f (a.js:1:2)\n  in g" = .ok (.inr (errorText 3 2)) := by decide +kernel

example : parseText c!"E: m\n  at f (a.js:1:2)\n" = .ok (.inl ⟨some c!"E", [⟨some c!"a.js", 1, 2, some c!"f"⟩], 1⟩) := by decide +kernel

end Satyr.Text.Js
