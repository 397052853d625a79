import Verif.CStr.Lemmas
import Mathlib.Data.List.Nodup
/-!
# Properties of the string utilities: C25-C31, C34
-/
namespace Satyr.CStr

/-! ## C25: decimal scanners -/

/-- C25 (32 bit): the maximal run of leading decimal digits is consumed, and its value stored, iff it is not empty
and its value is below 2^32; otherwise nothing is consumed or stored and 0 is returned. -/
theorem C25_uint32 (s : Str) : parseUint32 s =
    let ds := s.takeWhile IsDec
    .ok (if ds ≠ [] ∧ decValue ds < 2 ^ 32 then (ds.length, some (decValue ds), s.drop ds.length) else (0, none, s)) := by
  have hall : ∀ c ∈ s.takeWhile IsDec, IsDec c = true := fun _ h => List.mem_takeWhile_imp h
  unfold parseUint32
  simp only [parseCharSpan_eq, span10, Out.bind_ok]
  by_cases h : s.takeWhile IsDec = []
  · simp [h]
  · simp only [h, if_false]
    have hv := strtoull_digits 10 (s.takeWhile IsDec) h (fun c hc => by
      obtain ⟨-, h1, h2, h3, h4, h5, h6⟩ := digits10_val c (List.contains_iff_mem.1 (hall c hc))
      exact ⟨h1, h2, h3, h4, h5, h6⟩)
    rw [ofDigits_dec hall] at hv
    simp only [hv, drop_takeWhile]
    have hu : ullMax = 2 ^ 64 - 1 := rfl
    by_cases h1 : decValue (s.takeWhile IsDec) > ullMax
    · rw [if_pos h1]
      have h2 : ¬ decValue (s.takeWhile IsDec) < 2 ^ 32 := by omega
      simp only [h2, and_false, if_false, Bool.true_or, if_true]
    · rw [if_neg h1]
      by_cases h2 : decValue (s.takeWhile IsDec) < 2 ^ 32
      · have h3 : ¬ decValue (s.takeWhile IsDec) > 2 ^ 32 - 1 := by omega
        simp only [Bool.false_or, ne_eq, not_true_eq_false, decide_false, h3, Bool.false_eq_true, if_false]
        rw [if_pos ⟨h, h2⟩]
      · have h3 : decValue (s.takeWhile IsDec) > 2 ^ 32 - 1 := by omega
        simp only [h3, decide_true, Bool.or_true, if_true]
        rw [if_neg (fun hh => h2 hh.2)]

/-- C25 (64 bit): as for 32 bits, with the largest 64-bit value excluded (see `C25_not_uint64_max`). -/
theorem C25_uint64_partial (s : Str) : parseUint64 s =
    let ds := s.takeWhile IsDec
    .ok (if ds ≠ [] ∧ decValue ds < 2 ^ 64 - 1 then (ds.length, some (decValue ds), s.drop ds.length) else (0, none, s)) := by
  have hall : ∀ c ∈ s.takeWhile IsDec, IsDec c = true := fun _ h => List.mem_takeWhile_imp h
  unfold parseUint64
  simp only [parseCharSpan_eq, span10, Out.bind_ok]
  by_cases h : s.takeWhile IsDec = []
  · simp [h]
  · simp only [h, if_false]
    have hv := strtoull_digits 10 (s.takeWhile IsDec) h (fun c hc => by
      obtain ⟨-, h1, h2, h3, h4, h5, h6⟩ := digits10_val c (List.contains_iff_mem.1 (hall c hc))
      exact ⟨h1, h2, h3, h4, h5, h6⟩)
    rw [ofDigits_dec hall] at hv
    simp only [hv, drop_takeWhile]
    have hu : ullMax = 2 ^ 64 - 1 := rfl
    by_cases h1 : decValue (s.takeWhile IsDec) > ullMax
    · rw [if_pos h1]
      have h2 : ¬ decValue (s.takeWhile IsDec) < 2 ^ 64 - 1 := by omega
      simp only [h2, and_false, if_false, Bool.true_or, if_true]
    · rw [if_neg h1]
      by_cases h2 : decValue (s.takeWhile IsDec) < 2 ^ 64 - 1
      · have h3 : ¬ decValue (s.takeWhile IsDec) = 2 ^ 64 - 1 := by omega
        simp only [Bool.false_or, ne_eq, not_true_eq_false, decide_false, h3, Bool.false_eq_true, if_false]
        rw [if_pos ⟨h, h2⟩]
      · have h3 : decValue (s.takeWhile IsDec) = 2 ^ 64 - 1 := by omega
        simp only [h3, decide_true, Bool.or_true, if_true]
        simp

/-- C25 does not hold for the 64-bit scanner at the largest value: `18446744073709551615` fits the type but is
rejected. -/
theorem C25_not_uint64_max :
    ∃ s : Str, (∀ c ∈ s, IsDec c = true) ∧ s ≠ [] ∧ decValue s = 2 ^ 64 - 1 ∧ parseUint64 s = .ok (0, none, s) :=
  ⟨c!"18446744073709551615", by decide, by decide, by decide +kernel, by
    rw [C25_uint64_partial]; decide +kernel⟩

example : parseUint32 c!"4294967295 x" = .ok (10, some 4294967295, c!" x") := by
  rw [C25_uint32]; decide +kernel
example : parseUint32 c!"4294967296" = .ok (0, none, c!"4294967296") := by
  rw [C25_uint32]; decide +kernel
example : parseUint32 c!" 1" = .ok (0, none, c!" 1") := by
  rw [C25_uint32]; decide +kernel

/-! ## C26: hexadecimal scanners -/

/-- C26: the maximal run of leading hexadecimal digits is consumed, and its value stored, iff it is not empty and
its value is below 2^64. -/
theorem C26_hex (s : Str) : parseHexUint64 s =
    let ds := s.takeWhile IsHex
    .ok (if ds ≠ [] ∧ hexValue ds < 2 ^ 64 then (ds.length, some (hexValue ds), s.drop ds.length) else (0, none, s)) := by
  have hall : ∀ c ∈ s.takeWhile IsHex, IsHex c = true := fun _ h => List.mem_takeWhile_imp h
  unfold parseHexUint64
  simp only [parseCharSpan_eq, span16, Out.bind_ok]
  by_cases h : s.takeWhile IsHex = []
  · simp [h]
  · simp only [h, if_false]
    have hv := strtoull_digits 16 (s.takeWhile IsHex) h (fun c hc => by
      have := hall c hc
      rw [← span16] at this
      exact (digits16_val c (List.contains_iff_mem.1 this)).2)
    rw [ofDigits_hex hall] at hv
    simp only [hv, drop_takeWhile]
    have hu : ullMax = 2 ^ 64 - 1 := rfl
    by_cases h1 : hexValue (s.takeWhile IsHex) > ullMax
    · rw [if_pos h1]
      have h2 : ¬ hexValue (s.takeWhile IsHex) < 2 ^ 64 := by omega
      simp only [h2, and_false, if_false, Bool.true_or, if_true]
    · rw [if_neg h1]
      have h2 : hexValue (s.takeWhile IsHex) < 2 ^ 64 := by omega
      simp only [Bool.false_or, ne_eq, not_true_eq_false, decide_false, Bool.false_eq_true, if_false]
      rw [if_pos ⟨h, h2⟩]

/-- C26 for the variant with a `0x` prefix. -/
theorem C26_hex0x (s : Str) : parseHex0xUint64 s =
    .ok (match s with
      | '0' :: 'x' :: t =>
        let ds := t.takeWhile IsHex
        if ds ≠ [] ∧ hexValue ds < 2 ^ 64 then (2 + ds.length, some (hexValue ds), t.drop ds.length) else (0, none, s)
      | _ => (0, none, s)) := by
  unfold parseHex0xUint64
  rw [skipChar_eq _ (by decide)]
  simp only [Out.bind_ok]
  match s with
  | [] => rfl
  | c :: s =>
    by_cases h0 : c = '0'
    · subst h0
      simp only [if_true, Bool.not_true, Bool.false_eq_true, if_false]
      rw [skipChar_eq _ (by decide)]
      simp only [Out.bind_ok]
      match s with
      | [] => rfl
      | d :: t =>
        by_cases hx : d = 'x'
        · subst hx
          simp only [if_true, Bool.not_true, Bool.false_eq_true, if_false, C26_hex, Out.bind_ok]
          by_cases hc : t.takeWhile IsHex ≠ [] ∧ hexValue (t.takeWhile IsHex) < 2 ^ 64
          · rw [if_pos hc, if_pos hc]
            have : (t.takeWhile IsHex).length ≠ 0 := fun hh => hc.1 (List.length_eq_zero_iff.1 hh)
            simp only
            rw [if_neg (by omega)]
          · rw [if_neg hc, if_neg hc]
            simp
        · simp [hx]
    · simp [h0]

example : parseHex0xUint64 c!"0xfFfFfFfFfFfFfFfF@" = .ok (18, some (2 ^ 64 - 1), c!"@") := by
  rw [C26_hex0x]; decide +kernel
example : parseHex0xUint64 c!"0x10000000000000000" = .ok (0, none, c!"0x10000000000000000") := by
  rw [C26_hex0x]; decide +kernel
example : parseHex0xUint64 c!"0xg" = .ok (0, none, c!"0xg") := by
  rw [C26_hex0x]; decide +kernel

/-! ## C27: skipping and parsing primitives -/

/-- C27: `sr_skip_char_span` and `sr_parse_char_span` split the input behind the longest prefix of accepted
characters. -/
theorem C27_span (s accept : Str) :
    ∃ pre rest, s = pre ++ rest ∧ (∀ c ∈ pre, c ∈ accept) ∧ (∀ c t, rest = c :: t → c ∉ accept) ∧
      skipCharSpan s accept = .ok (pre.length, rest) ∧
      parseCharSpan s accept = .ok (if pre = [] then none else some pre, rest) := by
  refine ⟨_, _, (List.takeWhile_append_dropWhile (p := fun c => accept.contains c)).symm, ?_, ?_,
    skipCharSpan_eq s accept, parseCharSpan_eq s accept⟩
  · intro c hc; simpa using List.mem_takeWhile_imp hc
  · intro c t h hc
    have := List.head_dropWhile_not (fun c => accept.contains c) (l := s) (by rw [h]; simp)
    simp only [h, List.head_cons] at this
    simp [hc] at this

/-- C27: likewise for the complementary spans. -/
theorem C27_cspan (s reject : Str) :
    ∃ pre rest, s = pre ++ rest ∧ (∀ c ∈ pre, c ∉ reject) ∧ (∀ c t, rest = c :: t → c ∈ reject) ∧
      skipCharCspan s reject = .ok (pre.length, rest) ∧
      parseCharCspan s reject = .ok (if pre = [] then none else some pre, rest) := by
  refine ⟨_, _, (List.takeWhile_append_dropWhile (p := fun c => !reject.contains c)).symm, ?_, ?_,
    skipCharCspan_eq s reject, parseCharCspan_eq s reject⟩
  · intro c hc; simpa using List.mem_takeWhile_imp hc
  · intro c t h
    have := List.head_dropWhile_not (fun c => !reject.contains c) (l := s) (by rw [h]; simp)
    simp only [h, List.head_cons] at this
    simpa using this

theorem matchLoop_spec : ∀ s t : Str, ∃ p, s = p ++ (matchLoop s t).1 ∧ t = p ++ (matchLoop s t).2 ∧
    (∀ c x d y, (matchLoop s t).1 = c :: x → (matchLoop s t).2 = d :: y → c ≠ d)
  | [], t => ⟨[], by simp [matchLoop], by simp [matchLoop], by intro c x d y h; simp [matchLoop] at h⟩
  | c :: s, [] => ⟨[], by simp [matchLoop], by simp [matchLoop], by intro c x d y _ h; simp [matchLoop] at h⟩
  | c :: s, d :: t => by
    unfold matchLoop
    by_cases h : c = d
    · subst h
      simp only [if_true]
      obtain ⟨p, h1, h2, h3⟩ := matchLoop_spec s t
      exact ⟨c :: p, by rw [List.cons_append, ← h1], by rw [List.cons_append, ← h2], h3⟩
    · simp only [h, if_false]
      exact ⟨[], rfl, rfl, by rintro a x b y h1 h2; cases h1; cases h2; exact h⟩

/-- C27: `sr_skip_string` and `sr_parse_string` succeed exactly on inputs starting with the given string, consume
exactly it, and otherwise consume nothing. -/
theorem C27_string (s string : Str) :
    (∀ rest, s = string ++ rest → skipString s string = (string.length, rest) ∧ parseString s string = (some string, rest)) ∧
    ((¬ ∃ rest, s = string ++ rest) → skipString s string = (0, s) ∧ parseString s string = (none, s)) := by
  obtain ⟨p, h1, h2, h3⟩ := matchLoop_spec s string
  unfold skipString parseString strndup
  generalize matchLoop s string = r at h1 h2 h3
  obtain ⟨a, b⟩ := r
  simp only at h1 h2 h3 ⊢
  constructor
  · intro rest hr
    have : b = [] := by
      rw [h1, h2, List.append_assoc] at hr
      have hr := List.append_cancel_left hr
      cases b with
      | nil => rfl
      | cons d y => exact absurd rfl (h3 d (y ++ rest) d y (by simpa using hr) rfl)
    subst this
    rw [List.append_nil] at h2
    subst h2
    have ha : a = rest := List.append_cancel_left (h1.symm.trans hr)
    subst ha
    have hl : s.length - a.length = string.length := by rw [h1, List.length_append]; omega
    simp [hl]
  · intro hn
    have hb : b ≠ [] := by
      rintro rfl
      rw [List.append_nil] at h2
      subst h2
      exact hn ⟨a, h1⟩
    simp [hb]

/-- C27: the single-character primitives consume exactly a matching first character. The searched character is not
the terminator. -/
theorem C27_char (s : Str) (c : Char) (hc : c ≠ '\x00') :
    (∀ t, s = c :: t → skipChar s c = .ok (true, t)) ∧
    ((¬ ∃ t, s = c :: t) → skipChar s c = .ok (false, s)) := by
  rw [skipChar_eq s hc]
  refine ⟨fun t h => by subst h; simp, fun h => ?_⟩
  cases s with
  | nil => rfl
  | cons x t =>
    have : x ≠ c := fun hx => h ⟨t, by rw [hx]⟩
    simp [this]

theorem skipCharSequence_go {c : Char} (hc : c ≠ '\x00') : ∀ (fuel : Nat) (s : Str) (n : Nat), s.length < fuel →
    skipCharSequence.go c fuel s n = .ok (n + (s.takeWhile (· == c)).length, s.dropWhile (· == c))
  | 0, s, n, h => by omega
  | fuel + 1, s, n, h => by
    unfold skipCharSequence.go
    rw [skipChar_eq s hc]
    simp only [Out.bind_ok]
    cases s with
    | nil => simp
    | cons x t =>
      by_cases hx : x = c
      · subst hx
        simp only [if_true]
        rw [skipCharSequence_go hc fuel t (n + 1) (by simp at h; omega)]
        simp; omega
      · simp [hx]

/-- C27: `sr_skip_char_sequence` consumes exactly the leading repetitions. -/
theorem C27_char_sequence (s : Str) (c : Char) (hc : c ≠ '\x00') :
    ∃ n rest, s = List.replicate n c ++ rest ∧ (∀ t, rest ≠ c :: t) ∧ skipCharSequence s c = .ok (n, rest) := by
  refine ⟨(s.takeWhile (· == c)).length, s.dropWhile (· == c), ?_, ?_, ?_⟩
  · have : List.replicate (s.takeWhile (· == c)).length c = s.takeWhile (· == c) := by
      symm
      rw [List.eq_replicate_iff]
      exact ⟨rfl, fun b hb => by simpa using List.mem_takeWhile_imp hb⟩
    rw [this, List.takeWhile_append_dropWhile]
  · intro t h
    have := List.head_dropWhile_not (· == c) (l := s) (by rw [h]; simp)
    simp [h] at this
  · unfold skipCharSequence
    rw [skipCharSequence_go hc _ _ _ (by omega)]
    simp

/-- C27: `sr_parse_char_limited` and `sr_parse_digit`. -/
theorem C27_parse_char (s allowed : Str) (hs : NoNul s) :
    (∀ c t, s = c :: t → c ∈ allowed → parseCharLimited s allowed = .ok (some c, t)) ∧
    ((¬ ∃ c t, s = c :: t ∧ c ∈ allowed) → parseCharLimited s allowed = .ok (none, s)) ∧
    (∀ c t, s = c :: t → c ∈ c!"0123456789" → parseDigit s = .ok (c, t)) ∧
    ((¬ ∃ c t, s = c :: t ∧ c ∈ c!"0123456789") → parseDigit s = .ok ('\x00', s)) := by
  have dig : ∀ c : Char, (c < '0' ∨ c > '9') ↔ c ∉ c!"0123456789" := by
    intro c
    constructor
    · rintro h hm
      have : ∀ c ∈ c!"0123456789", ¬ (c < '0' ∨ c > '9') := by decide
      exact this c hm h
    · intro h
      by_contra hh
      apply h
      have h1 : 48 ≤ c.toNat ∧ c.toNat ≤ 57 := by
        rw [not_or] at hh
        have a1 : ¬ c.toNat < 48 := hh.1
        have a2 : ¬ 57 < c.toNat := hh.2
        omega
      have hc : c = Char.ofNat c.toNat := (Char.ofNat_toNat c).symm
      generalize c.toNat = n at hc h1
      subst hc
      have : n = 48 ∨ n = 49 ∨ n = 50 ∨ n = 51 ∨ n = 52 ∨ n = 53 ∨ n = 54 ∨ n = 55 ∨ n = 56 ∨ n = 57 := by omega
      rcases this with h | h | h | h | h | h | h | h | h | h <;> subst h <;> decide
  refine ⟨?_, ?_, ?_, ?_⟩
  · rintro c t rfl hc
    have h0 : c ≠ '\x00' := fun h => hs (by simp [h])
    simp [parseCharLimited, strchrHas, h0, hc, advance]
  · intro h
    cases s with
    | nil => simp [parseCharLimited]
    | cons c t =>
      have h0 : c ≠ '\x00' := fun h => hs (by simp [h])
      have h1 : c ∉ allowed := fun hc => h ⟨c, t, rfl, hc⟩
      simp [parseCharLimited, strchrHas, h0, h1]
  · rintro c t rfl hc
    have := (not_congr (dig c)).2 (not_not.2 hc)
    unfold parseDigit
    simp only [peek_cons, this, if_false]
    rfl
  · intro h
    unfold parseDigit
    cases s with
    | nil => rfl
    | cons c t =>
      have h1 : c ∉ c!"0123456789" := fun hc => h ⟨c, t, rfl, hc⟩
      simp only [peek_cons, (dig c).2 h1, if_true]

/-- C27 for `sr_skip_char_limited`, inside the input. -/
theorem C27_skip_char_limited_partial (s allowed : Str) (hs : NoNul s) (hne : s ≠ []) :
    (∀ c t, s = c :: t → c ∈ allowed → skipCharLimited s allowed = .ok (true, t)) ∧
    ((¬ ∃ c t, s = c :: t ∧ c ∈ allowed) → skipCharLimited s allowed = .ok (false, s)) := by
  refine ⟨?_, ?_⟩
  · rintro c t rfl hc
    simp [skipCharLimited, strchrHas, hc, advance]
  · intro h
    cases s with
    | nil => exact absurd rfl hne
    | cons c t =>
      have h0 : c ≠ '\x00' := fun h => hs (by simp [h])
      have h1 : c ∉ allowed := fun hc => h ⟨c, t, rfl, hc⟩
      simp [skipCharLimited, strchrHas, h0, h1]

/-- C27 does not hold for `sr_skip_char_limited`: at the end of the input it moves past the terminator, whatever the
allowed characters are. -/
theorem C27_not_skip_char_limited (allowed : Str) : skipCharLimited [] allowed = .ub := by
  simp [skipCharLimited, strchrHas, advance]

example : skipCharSpan c!"  ab" c!" " = .ok (2, c!"ab") := by decide +kernel
example : parseCharCspan c!"ab cd" c!" " = .ok (some c!"ab", c!" cd") := by decide +kernel
example : skipString c!"from x" c!"from " = (5, c!"x") := by decide +kernel
example : skipCharLimited c!"xy" c!"x" = .ok (true, c!"y") := by decide +kernel

/-! ## C28: locations -/

/-- Relative locations compose. -/
theorem locOf_append_char (p : Str) (c : Char) : (locOf p).eat c = locOf (p ++ [c]) := by
  unfold locOf Loc.eat
  by_cases h : c = '\n'
  · subst h; simp; omega
  · have : ('\n' == c) = false := by simpa using fun h' => h h'.symm
    simp [h, List.count_append]

/-- C28: adding the location reached after `q` to the location reached after `p` gives the location reached after
`p ++ q`. -/
theorem C28_add (p q : Str) : (locOf p).add (locOf q).line (locOf q).column = locOf (p ++ q) := by
  unfold locOf Loc.add
  simp only
  by_cases h : '\n' ∈ q
  · have hc : 0 < q.count '\n' := List.count_pos_iff.2 h
    rw [if_pos (by omega)]
    simp only [List.count_append, List.reverse_append, Loc.mk.injEq]
    refine ⟨by push_cast; omega, ?_⟩
    congr 1
    have : ¬ ∀ x ∈ q.reverse, decide (x ≠ '\n') = true := by
      intro hh; simpa using hh '\n' (by simpa using h)
    rw [List.takeWhile_append]
    split
    · next hl =>
      exfalso
      apply this
      have := (List.takeWhile_eq_self_iff (p := fun c => decide (c ≠ '\n')) (l := q.reverse)).1
        ((List.takeWhile_prefix _).eq_of_length hl)
      exact this
    · rfl
  · have hc : q.count '\n' = 0 := List.count_eq_zero.2 h
    rw [if_neg (by omega)]
    simp only [List.count_append, List.reverse_append, Loc.mk.injEq, hc]
    refine ⟨by omega, ?_⟩
    have hall : ∀ x ∈ q.reverse, decide (x ≠ '\n') = true := by
      intro x hx
      simp only [decide_eq_true_eq]
      rintro rfl
      exact h (by simpa using hx)
    rw [List.takeWhile_append_of_pos hall, List.takeWhile_eq_self_iff.2 hall]
    simp; omega

theorem strchrLoop_spec (c : Char) : ∀ (s pre : Str),
    strchrLoop c s (locOf pre) = (s.dropWhile (· != c), locOf (pre ++ s.takeWhile (· != c)))
  | [], pre => by simp [strchrLoop]
  | x :: s, pre => by
    unfold strchrLoop
    by_cases h : x = c
    · subst h; simp
    · simp only [h, if_false]
      rw [locOf_append_char, strchrLoop_spec c s]
      simp [h]

theorem locOf_nil : locOf [] = Loc.init := rfl

/-- C28: `sr_strchr_location` finds the first occurrence of the character and reports the location of the text before
it. When the character does not occur it returns NULL. -/
theorem C28_strchr (s : Str) (c : Char) (hc : c ≠ '\x00') :
    (∀ pre rest, s = pre ++ c :: rest → c ∉ pre → strchrLocation s c = (some (c :: rest), locOf pre)) ∧
    (c ∉ s → (strchrLocation s c).1 = none) := by
  unfold strchrLocation
  rw [← locOf_nil, strchrLoop_spec]
  simp only [List.nil_append]
  constructor
  · rintro pre rest rfl hn
    have hall : ∀ x ∈ pre, (x != c) = true := by
      intro x hx; simp; rintro rfl; exact hn hx
    rw [List.dropWhile_append_of_pos hall, List.takeWhile_append_of_pos hall]
    simp
  · intro hn
    have : s.dropWhile (· != c) = [] := by
      rw [List.dropWhile_eq_nil_iff]; intro x hx; simp; rintro rfl; exact hn hx
    simp [this, hc.symm]

theorem strstrLoop_found (needle : Str) (hne : needle ≠ []) (hnul : NoNul needle) :
    ∀ (fuel : Nat) (h p : Str), h.length < fuel →
      (∀ pre rest, h = pre ++ needle ++ rest →
        (∀ pre' rest', h = pre' ++ needle ++ rest' → pre.length ≤ pre'.length) →
        strstrLoop needle fuel h (locOf p) = (some (needle ++ rest), locOf (p ++ pre))) ∧
      ((¬ ∃ pre rest, h = pre ++ needle ++ rest) → (strstrLoop needle fuel h (locOf p)).1 = none)
  | 0, h, p, hl => by omega
  | fuel + 1, h, p, hl => by
    obtain ⟨n0, nt, rfl⟩ := List.exists_cons_of_ne_nil hne
    have hn0 : n0 ≠ '\x00' := fun hh => hnul (by simp [hh])
    unfold strstrLoop
    simp only [peek_cons]
    by_cases hm : n0 ∈ h
    · obtain ⟨pre0, rest0, rfl, hn⟩ := List.eq_append_cons_of_mem hm
      rw [(C28_strchr _ n0 hn0).1 pre0 rest0 rfl hn]
      simp only
      rw [C28_add]
      -- occurrences of the needle start at or after the first occurrence of its first character
      have occ : ∀ pre' rest', pre0 ++ n0 :: rest0 = pre' ++ (n0 :: nt) ++ rest' →
          ∃ q, pre' = pre0 ++ q ∧ n0 :: rest0 = q ++ (n0 :: nt) ++ rest' := by
        intro pre' rest' he
        have hle : pre0.length ≤ pre'.length := by
          by_contra hlt
          have hlt : pre'.length < pre0.length := by omega
          have : (pre0 ++ n0 :: rest0)[pre'.length]? = some n0 := by
            rw [he, List.append_assoc, List.getElem?_append_right (by omega)]
            simp
          rw [List.getElem?_append_left hlt] at this
          exact hn (List.mem_of_getElem? this)
        have hp : pre0 <+: pre' := by
          apply List.prefix_of_prefix_length_le (l₃ := pre0 ++ n0 :: rest0) (List.prefix_append _ _) _ hle
          rw [he, List.append_assoc]; exact List.prefix_append _ _
        obtain ⟨q, rfl⟩ := hp
        refine ⟨q, rfl, ?_⟩
        rw [List.append_assoc, List.append_assoc] at he
        rw [List.append_assoc]
        exact List.append_cancel_left he
      unfold startsWith
      by_cases hs : (n0 :: nt).isPrefixOf (n0 :: rest0) = true
      · rw [if_pos hs]
        obtain ⟨r, hr⟩ := List.isPrefixOf_iff_prefix.1 hs
        constructor
        · intro pre rest he hmin
          have hle := hmin pre0 r (by rw [List.append_assoc, hr])
          obtain ⟨q, rfl, hq⟩ := occ pre rest he
          have : q = [] := by
            rw [List.length_append] at hle
            exact List.length_eq_zero_iff.1 (by omega)
          subst this
          simp only [List.append_nil]
          rw [hq]; simp
        · intro hno
          exact absurd ⟨pre0, r, by rw [List.append_assoc, hr]⟩ hno
      · rw [if_neg hs]
        simp only [peek_cons, List.tail_cons]
        rw [locOf_append_char]
        have hl' : rest0.length < fuel := by simp at hl; omega
        have ih := strstrLoop_found (n0 :: nt) hne hnul fuel rest0 (p ++ pre0 ++ [n0]) hl'
        have occ' : ∀ pre' rest', pre0 ++ n0 :: rest0 = pre' ++ (n0 :: nt) ++ rest' →
            ∃ q, pre' = pre0 ++ n0 :: q ∧ rest0 = q ++ (n0 :: nt) ++ rest' := by
          intro pre' rest' he
          obtain ⟨q, rfl, hq⟩ := occ pre' rest' he
          cases q with
          | nil =>
            exfalso; apply hs
            rw [List.isPrefixOf_iff_prefix, hq]
            simp
          | cons x q =>
            simp only [List.cons_append, List.cons.injEq] at hq
            exact ⟨q, by rw [← hq.1], by simpa using hq.2⟩
        constructor
        · intro pre rest he hmin
          obtain ⟨q, rfl, hq⟩ := occ' pre rest he
          rw [ih.1 q rest hq]
          · simp
          · intro pre' rest' he'
            have := hmin (pre0 ++ n0 :: pre') rest' (by rw [he']; simp)
            simp at this; omega
        · intro hno
          apply ih.2
          rintro ⟨pre, rest, he⟩
          exact hno ⟨pre0 ++ n0 :: pre, rest, by rw [he]; simp⟩
    · have := (C28_strchr h n0 hn0).2 hm
      generalize strchrLocation h n0 = r at this
      obtain ⟨a, b⟩ := r
      simp only at this
      subst this
      simp only
      refine ⟨?_, by simp⟩
      intro pre rest he
      exact absurd (by rw [he]; simp) hm

/-- C28: `sr_strstr_location` finds the first occurrence of a non-empty string and reports the location of the text
before it; NULL when there is none. -/
theorem C28_strstr (h needle : Str) (hne : needle ≠ []) (hnul : NoNul needle) :
    (∀ pre rest, h = pre ++ needle ++ rest →
      (∀ pre' rest', h = pre' ++ needle ++ rest' → pre.length ≤ pre'.length) →
      strstrLocation h needle = (some (needle ++ rest), locOf pre)) ∧
    ((¬ ∃ pre rest, h = pre ++ needle ++ rest) → (strstrLocation h needle).1 = none) := by
  have h0 : peek needle ≠ '\x00' := by
    obtain ⟨n0, nt, rfl⟩ := List.exists_cons_of_ne_nil hne
    exact fun hh => hnul (by rw [← hh]; simp)
  unfold strstrLocation
  rw [if_neg h0, ← locOf_nil]
  simpa using strstrLoop_found needle hne hnul (h.length + 1) h [] (by omega)

theorem strspnLocation_go (accept : Str) : ∀ (s : Str) (n : Nat) (p : Str), NoNul s →
    strspnLocation.go accept s n (locOf p) =
      (n + (s.takeWhile fun c => accept.contains c).length, locOf (p ++ s.takeWhile fun c => accept.contains c))
  | [], n, p, _ => by simp [strspnLocation.go]
  | c :: s, n, p, hs => by
    have h0 : c ≠ '\x00' := fun h => hs (by simp [h])
    unfold strspnLocation.go strchrHas
    by_cases hc : c ∈ accept
    · rw [if_neg (by simp [hc]), locOf_append_char, strspnLocation_go accept s _ _ (fun h => hs (by simp [h]))]
      simp [hc]; omega
    · rw [if_pos (by simp [hc, h0])]
      simp [hc]

/-- C28: `sr_strspn_location` returns the length of the longest accepted prefix and the location after it. -/
theorem C28_strspn (s accept : Str) (hs : NoNul s) (pre rest : Str) (h : s = pre ++ rest) (hp : ∀ c ∈ pre, c ∈ accept)
    (hr : ∀ c t, rest = c :: t → c ∉ accept) : strspnLocation s accept = (pre.length, locOf pre) := by
  unfold strspnLocation
  rw [← locOf_nil, strspnLocation_go accept s 0 [] hs]
  have : s.takeWhile (fun c => accept.contains c) = pre := by
    rw [h, List.takeWhile_append_of_pos (fun c hc => by simpa using hp c hc)]
    cases rest with
    | nil => simp
    | cons c t => rw [List.takeWhile_cons, if_neg (by simpa using hr c t rfl)]; simp
  rw [this]; simp

/-- C28: `sr_skip_to_next_line_location` moves behind the next newline, if there is one, else to the end, and updates
the location of the text consumed so far (`p`) accordingly. -/
theorem C28_next_line (p line rest : Str) (hl : '\n' ∉ line) :
    skipToNextLine (line ++ '\n' :: rest) (locOf p) = .ok (true, rest, locOf (p ++ line ++ ['\n'])) ∧
    skipToNextLine line (locOf p) = .ok (false, [], locOf (p ++ line)) := by
  have hall : ∀ c ∈ line, (!['\n'].contains c) = true := by
    intro c hc; simp; rintro rfl; exact hl hc
  have key : ∀ l : Loc, (⟨l.line, l.column + (line.length : Int)⟩ : Loc) = l.add 1 line.length := by
    intro l; simp [Loc.add]
  have hline : locOf line = ⟨1, line.length⟩ := by
    unfold locOf
    rw [List.count_eq_zero.2 hl, List.takeWhile_eq_self_iff.2]
    · simp
    · intro c hc; simp; rintro rfl; exact hl (by simpa using hc)
  have hadd := C28_add p line
  rw [hline] at hadd
  simp only at hadd
  constructor
  · unfold skipToNextLine
    rw [skipCharCspan_eq, List.takeWhile_append_of_pos hall, List.dropWhile_append_of_pos hall]
    simp only [Out.bind_ok]
    have e1 : ('\n' :: rest).dropWhile (fun c => !['\n'].contains c) = '\n' :: rest := by simp
    have e2 : ('\n' :: rest).takeWhile (fun c => !['\n'].contains c) = [] := by simp
    simp only [e1, e2, peek_cons, if_true, advance, Out.bind_ok, List.append_nil]
    rw [← locOf_append_char, ← hadd]
    simp [Loc.eat, Loc.add]
  · unfold skipToNextLine
    rw [skipCharCspan_eq, List.takeWhile_eq_self_iff.2 hall, List.dropWhile_eq_nil_iff.2 hall]
    simp only [Out.bind_ok]
    rw [key, hadd]
    simp

example : strchrLocation c!"ab\ncd" 'd' = (some ['d'], ⟨2, 1⟩) := by decide +kernel
example : strstrLocation c!"ab\ncacaab" c!"caa" = (some c!"caab", ⟨2, 2⟩) := by decide +kernel
example : skipToNextLine c!"ab\ncd" ⟨1, 3⟩ = .ok (true, c!"cd", ⟨2, 0⟩) := by decide +kernel

/-! ## C29: indentation -/

theorem indentExceptFirst_line (n : Int) (l rest : Str) (hl : '\n' ∉ l) :
    indentExceptFirst n (l ++ rest) = l ++ indentExceptFirst n rest := by
  induction l with
  | nil => rfl
  | cons c l ih =>
    have hc : c ≠ '\n' := fun h => hl (by simp [h])
    rw [List.cons_append, indentExceptFirst, ih (fun h => hl (by simp [h])), List.cons_append]
    exact fun h => hc h

theorem flatMap_nil_iff (ls : List Str) : ls.flatMap (fun l => '\n' :: l) = [] ↔ ls = [] := by
  cases ls <;> simp

/-- C29: on a text given by its lines (the last one may be empty, which is a text ending in a newline),
`sr_indent_except_first_line` prefixes the blanks to all lines but the first, and puts none at the end of the text. -/
theorem C29_except_first (n : Nat) (l0 : Str) (ls : List Str) (h0 : '\n' ∉ l0) (hs : ∀ l ∈ ls, '\n' ∉ l) :
    indentExceptFirst n (joinLines l0 ls) = joinLines l0 (padLines n ls) := by
  unfold joinLines
  rw [indentExceptFirst_line _ _ _ h0]
  congr 1
  clear h0
  induction ls with
  | nil => rfl
  | cons l ls ih =>
    have ih := ih (fun x hx => hs x (by simp [hx]))
    have hl := hs l (by simp)
    rw [List.flatMap_cons, List.cons_append, indentExceptFirst, indentExceptFirst_line _ _ _ hl, ih]
    cases ls with
    | nil =>
      by_cases hn : l = []
      · subst hn; simp [padLines]
      · simp [padLines, hn, blanks]
    | cons l' ls' =>
      simp [padLines, blanks]

/-- C29: `sr_indent` additionally indents the first line, unless the text is empty. -/
theorem C29_indent (n : Nat) (l0 : Str) (ls : List Str) (h0 : '\n' ∉ l0) (hs : ∀ l ∈ ls, '\n' ∉ l) :
    indent n (joinLines l0 ls) =
      if joinLines l0 ls = [] then [] else List.replicate n ' ' ++ joinLines l0 (padLines n ls) := by
  unfold indent
  rw [C29_except_first n l0 ls h0 hs]
  by_cases h : joinLines l0 ls = []
  · rw [if_pos h, if_neg (by simpa using h)]
    unfold joinLines at h ⊢
    simp only [List.append_eq_nil_iff, flatMap_nil_iff] at h
    simp [h.1, h.2, padLines]
  · rw [if_neg h, if_pos h]
    simp [blanks]

/-- Removes up to `n` blanks after every newline. -/
def unindent (n : Nat) : Str → Str
  | [] => []
  | '\n' :: rest => '\n' :: unindent n (rest.drop n)
  | c :: rest => c :: unindent n rest
termination_by s => s.length
decreasing_by all_goals simp <;> omega

/-- C29: removing the inserted blanks gives the text back. -/
theorem C29_removable (n : Nat) (s : Str) : unindent n (indentExceptFirst n s) = s := by
  induction s with
  | nil => rw [indentExceptFirst, unindent]
  | cons c s ih =>
    by_cases hc : c = '\n'
    · subst hc
      rw [indentExceptFirst, unindent]
      by_cases h : s = []
      · subst h; simp [indentExceptFirst, unindent]
      · rw [if_pos h]
        simp [blanks, ih]
    · rw [indentExceptFirst, unindent, ih]
      · exact fun h => hc h
      · exact fun h => hc h

example : indent 2 c!"a\nb\n\nc\n" = c!"  a\n  b\n  \n  c\n" := by decide +kernel
example : joinLines c!"a" [c!"b", [], c!"c", []] = c!"a\nb\n\nc\n" := by decide +kernel

/-! ## C30: bin2hex -/

/-- C30: two lower-case hexadecimal digits per byte, and decoding gives the bytes back. -/
theorem C30_bin2hex (bs : List UInt8) :
    unhex (bin2hex bs) = some bs ∧ (bin2hex bs).length = 2 * bs.length ∧
    ∀ c ∈ bin2hex bs, c ∈ c!"0123456789abcdef" := by
  have key : ∀ n : Fin 16, hexdigits.getD n.val '?' ∈ c!"0123456789abcdef" ∧
      c!"0123456789abcdef".idxOf (hexdigits.getD n.val '?') = n.val := by decide
  induction bs with
  | nil => simp [bin2hex, unhex]
  | cons b bs ih =>
    obtain ⟨ih1, ih2, ih3⟩ := ih
    have hb : b.toNat < 256 := b.toNat_lt
    have e1 : (b >>> 4).toNat = b.toNat / 16 := by
      rw [UInt8.toNat_shiftRight]; simp [Nat.shiftRight_eq_div_pow]
    have e2 : (b &&& 0xf).toNat = b.toNat % 16 := by
      rw [UInt8.toNat_and]
      exact Nat.and_two_pow_sub_one_eq_mod b.toNat 4
    have k1 := key ⟨b.toNat / 16, by omega⟩
    have k2 := key ⟨b.toNat % 16, by omega⟩
    simp only at k1 k2
    unfold bin2hex
    rw [e1, e2]
    refine ⟨?_, by simp [ih2]; omega, ?_⟩
    · rw [unhex, ih1, List.contains_iff_mem.2 k1.1, List.contains_iff_mem.2 k2.1, k1.2, k2.2]
      simp only [Bool.and_self, if_true, Option.map_some]
      congr 2
      rw [Nat.div_add_mod']
      exact UInt8.ofNat_toNat
    · intro c hc
      rcases List.mem_cons.1 hc with rfl | hc
      · exact k1.1
      rcases List.mem_cons.1 hc with rfl | hc
      · exact k2.1
      · exact ih3 c hc

/-- C30: different byte strings have different representations. -/
theorem C30_injective (a b : List UInt8) (h : bin2hex a = bin2hex b) : a = b := by
  have := (C30_bin2hex a).1
  rw [h, (C30_bin2hex b).1] at this
  exact (Option.some.inj this).symm

example : bin2hex [0xff, 0x00, 0x1a] = c!"ff001a" := by decide +kernel

/-! ## C31: path anonymization -/

theorem strchr_append (u rest : Str) (h : '/' ∉ u) : strchr (u ++ '/' :: rest) '/' = some ('/' :: rest) := by
  induction u with
  | nil => rfl
  | cons c u ih =>
    have hc : c ≠ '/' := fun hh => h (by simp [hh])
    rw [List.cons_append, strchr, if_neg hc, ih (fun hh => h (by simp [hh]))]

theorem strchr_none (u : Str) (h : '/' ∉ u) : strchr u '/' = none := by
  induction u with
  | nil => rfl
  | cons c u ih =>
    have hc : c ≠ '/' := fun hh => h (by simp [hh])
    rw [strchr, if_neg hc, ih (fun hh => h (by simp [hh]))]

/-- C31: the user component of a path below a home directory is replaced, whatever it is. -/
theorem C31_replaces (user rest : Str) (hu : '/' ∉ user) :
    anonymizePath (c!"/home/" ++ user ++ '/' :: rest) = c!"/home/anonymized/" ++ rest := by
  unfold anonymizePath
  have h1 : startsWith (c!"/home/" ++ user ++ '/' :: rest) c!"/home/" = true := by
    unfold startsWith; rw [List.isPrefixOf_iff_prefix, List.append_assoc]; exact List.prefix_append _ _
  have h2 : (c!"/home/" ++ user ++ '/' :: rest).drop 6 = user ++ '/' :: rest := rfl
  rw [if_pos h1, h2, strchr_append _ _ hu]
  rfl

/-- C31: every other path is left alone. -/
theorem C31_keeps (p : Str) (h : ¬ ∃ user rest, '/' ∉ user ∧ p = c!"/home/" ++ user ++ '/' :: rest) :
    anonymizePath p = p := by
  unfold anonymizePath
  split
  · next hs =>
    obtain ⟨t, rfl⟩ := List.isPrefixOf_iff_prefix.1 hs
    have : (c!"/home/" ++ t).drop 6 = t := rfl
    rw [this]
    by_cases hm : '/' ∈ t
    · obtain ⟨u, r, rfl, hu⟩ := List.eq_append_cons_of_mem hm
      exact absurd ⟨u, r, hu, by rw [List.append_assoc]⟩ h
    · rw [strchr_none t hm]
  · rfl

/-- C31: anonymizing twice is anonymizing once. -/
theorem C31_idempotent (p : Str) : anonymizePath (anonymizePath p) = anonymizePath p := by
  by_cases h : ∃ user rest, '/' ∉ user ∧ p = c!"/home/" ++ user ++ '/' :: rest
  · obtain ⟨u, r, hu, rfl⟩ := h
    rw [C31_replaces u r hu]
    exact C31_replaces c!"anonymized" r (by decide)
  · rw [C31_keeps p h, C31_keeps p h]

/-- C31: two users with the same files below their home directories give the same path. -/
theorem C31_hides_user (u v rest : Str) (hu : '/' ∉ u) (hv : '/' ∉ v) :
    anonymizePath (c!"/home/" ++ u ++ '/' :: rest) = anonymizePath (c!"/home/" ++ v ++ '/' :: rest) := by
  rw [C31_replaces u rest hu, C31_replaces v rest hv]

example : anonymizePath c!"/home/jo/src/a.c" = c!"/home/anonymized/src/a.c" := by decide +kernel
example : anonymizePath c!"/usr/home/jo/a.c" = c!"/usr/home/jo/a.c" := by decide +kernel

/-! ## C34: duplicate removal in sorted arrays -/

section Uniq
variable {S : Type} [DecidableEq S]

/-- Consecutive duplicates removed from right to left: what the loop computes. -/
theorem struniqLoop_take_drop : ∀ (k : Nat) (l : List S), k < l.length → (l.drop k).IsChain (· ≠ ·) →
    (struniqLoop k l).IsChain (· ≠ ·) ∧ (struniqLoop k l).Sublist l ∧ ∀ x, x ∈ struniqLoop k l ↔ x ∈ l
  | 0, l, hk, hc => by simpa [struniqLoop] using hc
  | k + 1, l, hk, hc => by
    unfold struniqLoop
    by_cases h : l[k + 1]? = l[k]?
    · rw [if_pos h]
      have hk' : k < (l.eraseIdx (k + 1)).length := by rw [List.length_eraseIdx]; split <;> omega
      have hd : (l.eraseIdx (k + 1)).drop k = l[k]'(by omega) :: l.drop (k + 2) := by
        rw [List.drop_eq_getElem_cons hk']
        congr 1
        · rw [List.getElem_eraseIdx]; simp
        · rw [List.eraseIdx_eq_take_drop_succ, List.drop_append]
          simp
          omega
      have hk1 : l[k + 1]'hk = l[k]'(by omega) := by
        rw [List.getElem?_eq_getElem hk, List.getElem?_eq_getElem (by omega)] at h
        exact Option.some.inj h
      have hc' : ((l.eraseIdx (k + 1)).drop k).IsChain (· ≠ ·) := by
        rw [hd, ← hk1, ← List.drop_eq_getElem_cons hk]; exact hc
      obtain ⟨a, b, c⟩ := struniqLoop_take_drop k _ hk' hc'
      refine ⟨a, b.trans (List.eraseIdx_sublist l (k + 1)), fun x => (c x).trans ⟨fun hx => List.mem_of_mem_eraseIdx hx, ?_⟩⟩
      intro hx
      rw [List.mem_eraseIdx_iff_getElem]
      obtain ⟨i, hi, rfl⟩ := List.mem_iff_getElem.1 hx
      by_cases hik : i = k + 1
      · subst hik
        exact ⟨k, by omega, by omega, hk1.symm⟩
      · exact ⟨i, hi, hik, rfl⟩
    · rw [if_neg h]
      apply struniqLoop_take_drop k l (by omega)
      rw [List.drop_eq_getElem_cons (by omega : k < l.length)]
      rw [List.drop_eq_getElem_cons hk, List.isChain_cons_cons]
      rw [List.drop_eq_getElem_cons hk] at hc
      refine ⟨fun hh => h ?_, hc⟩
      rw [List.getElem?_eq_getElem hk, List.getElem?_eq_getElem (by omega), hh]

/-- C34: on an array sorted by an antisymmetric relation, `sr_struniq` leaves each string exactly once, in
the original order. -/
theorem C34_struniq (le : S → S → Prop)
    (hanti : ∀ a b, le a b → le b a → a = b) (l : List S) (hsorted : l.Pairwise le) :
    (struniq l).Nodup ∧ (struniq l).Sublist l ∧ ∀ x, x ∈ struniq l ↔ x ∈ l := by
  unfold struniq
  by_cases hl : l.length < 1
  · have : l = [] := List.length_eq_zero_iff.1 (by omega)
    subst this; simp
  · rw [if_neg hl]
    have hd : (l.drop (l.length - 1)).IsChain (· ≠ ·) := by
      have : (l.drop (l.length - 1)).length = 1 := by rw [List.length_drop]; omega
      obtain ⟨a, ha⟩ := List.length_eq_one_iff.1 this
      rw [ha]; simp
    obtain ⟨h1, h2, h3⟩ := struniqLoop_take_drop (l.length - 1) l (by omega) hd
    refine ⟨?_, h2, h3⟩
    have hs : (struniqLoop (l.length - 1) l).Pairwise le := hsorted.sublist h2
    generalize struniqLoop (l.length - 1) l = m at h1 hs
    clear h2 h3 hd hl hsorted
    induction m with
    | nil => simp
    | cons a m ih =>
      rw [List.pairwise_cons] at hs
      rw [List.nodup_cons]
      refine ⟨?_, ih (List.IsChain.of_cons h1) hs.2⟩
      intro ha
      cases m with
      | nil => simp at ha
      | cons b m =>
        rw [List.isChain_cons_cons] at h1
        rcases List.mem_cons.1 ha with h | h
        · exact h1.1 h
        · have hab := hs.1 b (by simp)
          have hba := (List.pairwise_cons.1 hs.2).1 a h
          exact h1.1 (hanti a b hab hba)

example : struniq ["a", "a", "b", "c", "c", "c"] = ["a", "b", "c"] := by decide +kernel
end Uniq

end Satyr.CStr
