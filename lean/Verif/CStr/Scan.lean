import Verif.CStr.Num
/-!
# Scanning hexadecimal numbers and blank-separated fields
-/
namespace Satyr.CStr

/-- The conversion `%Lx` of `sscanf` (also `SCNx64`): like `strtoull` in base 16. (They differ on `0x` without a digit after
it, where `strtoull` stops before the `x` and `sscanf` after it or fails, depending on the C library.) -/
def scanHex (s : Str) : Option (Nat × Str) :=
  let r := strtoull 16 s
  if r.noConversion then none else some (r.value, r.rest)

/-- `sr_skip_whitespace` (lib/utils.c:518-526). It stops at the end of the text at the latest. -/
def skipWs (s : Str) : Str := s.dropWhile isSpace

/-- `sr_skip_non_whitespace` (lib/utils.c:528-535). -/
def skipNonWs (s : Str) : Str := s.dropWhile fun c => !isSpace c

/-- A text without white space. -/
def NoSpace (s : Str) : Prop := ∀ c ∈ s, isSpace c = false

instance (s : Str) : Decidable (NoSpace s) := by unfold NoSpace; infer_instance

theorem skipWs_of {s : Str} (h : isSpace (peek s) = false) : skipWs s = s := by
  cases s with
  | nil => rfl
  | cons c s =>
    have hc : isSpace c = false := h
    rw [skipWs, List.dropWhile_cons, if_neg (by simp [hc])]

theorem skipWs_append {w s : Str} (hw : ∀ c ∈ w, isSpace c = true) (h : isSpace (peek s) = false) : skipWs (w ++ s) = s := by
  rw [skipWs, List.dropWhile_append_of_pos hw]
  exact skipWs_of h

theorem field {a s : Str} (ha : NoSpace a) (hs : s = [] ∨ isSpace (peek s) = true) :
    (a ++ s).takeWhile (fun c => !isSpace c) = a ∧ skipNonWs (a ++ s) = s := by
  have ha' : ∀ c ∈ a, (!isSpace c) = true := fun c hc => by simp [ha c hc]
  rcases hs with rfl | hs
  · rw [List.append_nil, skipNonWs]
    exact ⟨List.takeWhile_eq_self_iff.2 ha', List.dropWhile_eq_nil_iff.2 ha'⟩
  · exact takeWhile_append_stop ha' (by simp [hs])

theorem peek_append {a b : Str} (h : a ≠ []) : peek (a ++ b) = peek a := by
  cases a with
  | nil => exact absurd rfl h
  | cons c a => rfl

theorem NoSpace.peek {a : Str} (h : NoSpace a) (hne : a ≠ []) (b : Str) : isSpace (peek (a ++ b)) = false := by
  rw [peek_append hne]
  cases a with
  | nil => exact absurd rfl hne
  | cons c a => exact h c (by simp)

theorem hex_mem {c : Char} (h : IsHex c = true) : c ∈ digits16 := by
  rw [← span16] at h
  simpa using h

theorem hex_char {c : Char} (h : IsHex c = true) : digitVal c < 16 ∧ isSpace c = false ∧ c ≠ '-' ∧ c ≠ '+' ∧ c ≠ 'x' ∧ c ≠ 'X' := by
  obtain ⟨-, h2, h3, h4, h5, h6, h7⟩ := digits16_val c (hex_mem h)
  exact ⟨h2, h3, h4, h5, h6, h7⟩

/-- Hexadecimal digits with an optional `0x`, after white space, are scanned as their value. -/
theorem scanHex_digits (w ds rest : Str) (pre : Bool) (hw : ∀ c ∈ w, isSpace c = true) (h : ∀ c ∈ ds, IsHex c = true)
    (hne : ds ≠ []) (hv : hexValue ds < 2 ^ 64) (hr : digitVal (peek rest) ≥ 16) (hx : peek rest ≠ 'x' ∧ peek rest ≠ 'X') :
    scanHex (w ++ ((if pre then c!"0x" else []) ++ (ds ++ rest))) = some (hexValue ds, rest) := by
  obtain ⟨c, t, rfl⟩ := List.exists_cons_of_ne_nil hne
  obtain ⟨h1, h2, h3, h4, h5, h6⟩ := hex_char (h c (by simp))
  have ht := takeWhile_append_stop (p := fun c => decide (digitVal c < 16)) (a := c :: t) (b := rest)
    (fun x hx => by simpa using (hex_char (h x hx)).1) (by simpa using hr)
  have hpt : peek (t ++ rest) ≠ 'x' ∧ peek (t ++ rest) ≠ 'X' := by
    cases t with
    | nil => exact hx
    | cons y t =>
      have := hex_char (h y (by simp))
      exact ⟨this.2.2.2.2.1, this.2.2.2.2.2⟩
  have hval : ofDigits 16 (c :: t) = hexValue (c :: t) := ofDigits_hex h
  have key : ∀ s : Str, s = (if pre then c!"0x" else []) ++ ((c :: t) ++ rest) →
      (if peek s = '0' ∧ (peek s.tail = 'x' ∨ peek s.tail = 'X') ∧ digitVal (peek s.tail.tail) < 16
        then s.tail.tail else s) = (c :: t) ++ rest ∧ isSpace (peek s) = false ∧ (peek s == '-') = false ∧
        (peek s == '+') = false := by
    rintro s rfl
    cases pre with
    | true =>
      refine ⟨if_pos ⟨rfl, Or.inl rfl, h1⟩, rfl, rfl, rfl⟩
    | false =>
      refine ⟨if_neg ?_, h2, by simp [h3], by simp [h4]⟩
      rintro ⟨-, h, -⟩
      rcases h with h | h
      · exact hpt.1 h
      · exact hpt.2 h
  obtain ⟨k1, k2, k3, k4⟩ := key _ rfl
  have hskip : (w ++ ((if pre then c!"0x" else []) ++ ((c :: t) ++ rest))).dropWhile isSpace =
      (if pre then c!"0x" else []) ++ ((c :: t) ++ rest) := skipWs_append hw k2
  unfold scanHex strtoull
  simp only [hskip, k3, k4, Bool.or_self, Bool.false_eq_true, if_false, true_and]
  have hle : ¬ hexValue (c :: t) > ullMax := by unfold ullMax; omega
  rw [k1, ht.1, ht.2, hval]
  simp only [if_neg (List.cons_ne_nil c t), if_neg hle, Bool.false_eq_true, if_false]

end Satyr.CStr
