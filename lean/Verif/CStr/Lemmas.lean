import Verif.CStr.Spec
import Mathlib.Data.List.TakeWhile
import Mathlib.Tactic.Ring
/-!
# Lemmas about the string utilities
-/
namespace Satyr.CStr

@[simp] theorem peek_nil : peek [] = '\x00' := rfl
@[simp] theorem peek_cons (c s) : peek (c :: s) = c := rfl

theorem takeWhile_length_le {p : Char → Bool} (s : Str) : (s.takeWhile p).length ≤ s.length :=
  (List.takeWhile_prefix p).length_le

theorem take_takeWhile {p : Char → Bool} (s : Str) : s.take (s.takeWhile p).length = s.takeWhile p := by
  exact (List.prefix_iff_eq_take.1 (List.takeWhile_prefix p)).symm

theorem drop_takeWhile {p : Char → Bool} (s : Str) : s.drop (s.takeWhile p).length = s.dropWhile p := by
  induction s with
  | nil => rfl
  | cons c s ih =>
    rw [List.takeWhile_cons, List.dropWhile_cons]
    split
    · simpa using ih
    · rfl

theorem strspn_advance (s accept : Str) : advanceBy s (strspn s accept) = .ok (s.dropWhile fun c => accept.contains c) := by
  unfold advanceBy strspn
  rw [if_pos (takeWhile_length_le s), drop_takeWhile]

theorem strcspn_advance (s reject : Str) : advanceBy s (strcspn s reject) = .ok (s.dropWhile fun c => !reject.contains c) := by
  unfold advanceBy strcspn
  rw [if_pos (takeWhile_length_le s), drop_takeWhile]

theorem dropWhile_of_takeWhile_nil {p : Char → Bool} {s : Str} (h : s.takeWhile p = []) : s.dropWhile p = s := by
  have := List.takeWhile_append_dropWhile (p := p) (l := s)
  rw [h] at this; simpa using this

theorem parseCharSpan_eq (s accept : Str) : parseCharSpan s accept =
    .ok (if s.takeWhile (fun c => accept.contains c) = [] then none else some (s.takeWhile fun c => accept.contains c),
      s.dropWhile fun c => accept.contains c) := by
  unfold parseCharSpan
  simp only [strspn_advance, Out.bind_ok]
  have : strspn s accept = 0 ↔ s.takeWhile (fun c => accept.contains c) = [] := by
    unfold strspn; exact List.length_eq_zero_iff
  simp only [this]
  split
  · next h => rw [dropWhile_of_takeWhile_nil h]
  · simp [strndup, strspn, take_takeWhile]

theorem parseCharCspan_eq (s reject : Str) : parseCharCspan s reject =
    .ok (if s.takeWhile (fun c => !reject.contains c) = [] then none else some (s.takeWhile fun c => !reject.contains c),
      s.dropWhile fun c => !reject.contains c) := by
  unfold parseCharCspan
  simp only [strcspn_advance, Out.bind_ok]
  have : strcspn s reject = 0 ↔ s.takeWhile (fun c => !reject.contains c) = [] := by
    unfold strcspn; exact List.length_eq_zero_iff
  simp only [this]
  split
  · next h => rw [dropWhile_of_takeWhile_nil h]
  · simp [strndup, strcspn, take_takeWhile]

theorem skipCharSpan_eq (s accept : Str) : skipCharSpan s accept =
    .ok ((s.takeWhile fun c => accept.contains c).length, s.dropWhile fun c => accept.contains c) := by
  unfold skipCharSpan
  simp only [strspn_advance, Out.bind_ok]
  split
  · next h =>
    have h' : s.takeWhile (fun c => accept.contains c) = [] := List.length_eq_zero_iff.1 h
    rw [dropWhile_of_takeWhile_nil h', h']; rfl
  · rfl

theorem skipCharCspan_eq (s reject : Str) : skipCharCspan s reject =
    .ok ((s.takeWhile fun c => !reject.contains c).length, s.dropWhile fun c => !reject.contains c) := by
  unfold skipCharCspan
  simp only [strcspn_advance, Out.bind_ok]
  split
  · next h =>
    have h' : s.takeWhile (fun c => !reject.contains c) = [] := List.length_eq_zero_iff.1 h
    rw [dropWhile_of_takeWhile_nil h', h']; rfl
  · rfl

theorem skipChar_eq (s : Str) {c : Char} (hc : c ≠ '\x00') : skipChar s c =
    .ok (match s with | [] => (false, []) | x :: t => if x = c then (true, t) else (false, x :: t)) := by
  cases s with
  | nil => simp [skipChar, hc.symm]
  | cons x t =>
    by_cases h : x = c <;> simp [skipChar, advance, h]

/-! ### Numbers -/

theorem ofDigits_foldl (base : Nat) (ds : Str) (n : Nat) :
    ds.foldl (fun n c => n * base + digitVal c) n = Nat.ofDigits base (ds.reverse.map digitVal) + n * base ^ ds.length := by
  induction ds generalizing n with
  | nil => simp
  | cons c ds ih =>
    rw [List.foldl_cons, ih]
    simp only [List.reverse_cons, List.map_append, List.map_cons, List.map_nil, Nat.ofDigits_append, List.length_map,
      List.length_reverse, List.length_cons, Nat.ofDigits_singleton]
    ring

theorem digits10_val : ∀ c ∈ digits10, digitVal c = c!"0123456789".idxOf c ∧ digitVal c < 10 ∧ isSpace c = false ∧
    c ≠ '-' ∧ c ≠ '+' ∧ c ≠ 'x' ∧ c ≠ 'X' := by decide

theorem digits16_val : ∀ c ∈ digits16, digitVal c = c!"0123456789abcdef".idxOf c.toLower ∧ digitVal c < 16 ∧
    isSpace c = false ∧ c ≠ '-' ∧ c ≠ '+' ∧ c ≠ 'x' ∧ c ≠ 'X' := by decide

theorem mem_of_all {p : Char → Bool} {s : Str} : ∀ c ∈ s.takeWhile p, p c = true := fun _ h => List.mem_takeWhile_imp h

theorem strtoull_digits (base : Nat) (ds : Str) (hne : ds ≠ []) (hd : ∀ c ∈ ds, digitVal c < base ∧ isSpace c = false ∧
    c ≠ '-' ∧ c ≠ '+' ∧ c ≠ 'x' ∧ c ≠ 'X') :
    strtoull base ds = if ofDigits base ds > ullMax then ⟨ullMax, true, false, []⟩ else ⟨ofDigits base ds, false, false, []⟩ := by
  obtain ⟨c, t, rfl⟩ := List.exists_cons_of_ne_nil hne
  obtain ⟨h1, h2, h3, h4, -⟩ := hd c (by simp)
  have hw : (c :: t).takeWhile (fun c => decide (digitVal c < base)) = c :: t :=
    List.takeWhile_eq_self_iff.2 (fun x hx => by simpa using (hd x hx).1)
  have hdw : (c :: t).dropWhile (fun c => decide (digitVal c < base)) = [] :=
    List.dropWhile_eq_nil_iff.2 (fun x hx => by simpa using (hd x hx).1)
  have hpt : peek t ≠ 'x' ∧ peek t ≠ 'X' := by
    cases t with
    | nil => decide
    | cons y t => exact ⟨(hd y (by simp)).2.2.2.2.1, (hd y (by simp)).2.2.2.2.2⟩
  unfold strtoull
  have hs : (c :: t).dropWhile isSpace = c :: t := by rw [List.dropWhile_cons, if_neg (by simp [h2])]
  simp only [hs, peek_cons, beq_eq_false_iff_ne.2 h3, beq_eq_false_iff_ne.2 h4, Bool.or_self, Bool.false_eq_true, if_false,
    List.tail_cons]
  have hs3 : (if base = 16 ∧ c = '0' ∧ (peek t = 'x' ∨ peek t = 'X') ∧ digitVal (peek t.tail) < 16 then t.tail
      else c :: t) = c :: t :=
    if_neg (by rintro ⟨-, -, h, -⟩; rcases h with h | h; exact hpt.1 h; exact hpt.2 h)
  rw [hs3, hw, hdw]
  simp

theorem span10 : (fun c => digits10.contains c) = IsDec := rfl

theorem toLower_mem {c : Char} (h : c.toLower ∈ c!"0123456789abcdef") : c ∈ digits16 := by
  by_cases hu : 65 ≤ c.val.toNat ∧ c.val.toNat ≤ 90
  · have hc : c = Char.ofNat c.toNat := (Char.ofNat_toNat c).symm
    have hb : 65 ≤ c.toNat ∧ c.toNat ≤ 90 := hu
    generalize c.toNat = n at hc hb
    obtain ⟨b1, b2⟩ := hb
    subst hc
    have : n = 65 ∨ n = 66 ∨ n = 67 ∨ n = 68 ∨ n = 69 ∨ n = 70 ∨ n = 71 ∨ n = 72 ∨ n = 73 ∨ n = 74 ∨ n = 75 ∨ n = 76 ∨
      n = 77 ∨ n = 78 ∨ n = 79 ∨ n = 80 ∨ n = 81 ∨ n = 82 ∨ n = 83 ∨ n = 84 ∨ n = 85 ∨ n = 86 ∨ n = 87 ∨ n = 88 ∨
      n = 89 ∨ n = 90 := by omega
    rcases this with h | h | h | h | h | h | h | h | h | h | h | h | h | h | h | h | h | h | h | h | h | h | h | h | h | h <;>
      subst h <;> revert h <;> decide
  · have : c.toLower = c := by
      unfold Char.toLower
      split
      · next hc =>
        exfalso
        apply hu
        simp [UInt32.le_iff_toNat_le] at hc
        exact hc
      · rfl
    rw [this] at h
    revert h
    have key : ∀ c ∈ c!"0123456789abcdef", c ∈ digits16 := by decide
    exact key c

theorem span16 : (fun c => digits16.contains c) = IsHex := by
  funext c
  unfold IsHex
  rw [Bool.eq_iff_iff]
  simp only [List.contains_iff_mem]
  constructor
  · have : ∀ c ∈ digits16, c.toLower ∈ c!"0123456789abcdef" := by decide
    exact this c
  · exact toLower_mem

theorem ofDigits_dec {ds : Str} (h : ∀ c ∈ ds, IsDec c = true) : ofDigits 10 ds = decValue ds := by
  unfold ofDigits decValue
  rw [ofDigits_foldl]
  simp only [Nat.zero_mul, Nat.add_zero]
  congr 1
  apply List.map_congr_left
  intro c hc
  exact (digits10_val c (List.contains_iff_mem.1 (h c (List.mem_reverse.1 hc)))).1

theorem ofDigits_hex {ds : Str} (h : ∀ c ∈ ds, IsHex c = true) : ofDigits 16 ds = hexValue ds := by
  unfold ofDigits hexValue
  rw [ofDigits_foldl]
  simp only [Nat.zero_mul, Nat.add_zero]
  congr 1
  apply List.map_congr_left
  intro c hc
  rw [← span16] at h
  exact (digits16_val c (List.contains_iff_mem.1 (h c (List.mem_reverse.1 hc)))).1

end Satyr.CStr
