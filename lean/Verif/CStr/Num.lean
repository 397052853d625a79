import Verif.CStr.Props
/-!
# Printing numbers and scanning them again
-/
namespace Satyr.CStr

theorem decChar (n : Nat) (h : n < 10) : IsDec (Char.ofNat (48 + n)) = true ∧
    c!"0123456789".idxOf (Char.ofNat (48 + n)) = n := by
  have : ∀ n : Fin 10, IsDec (Char.ofNat (48 + n.val)) = true ∧ c!"0123456789".idxOf (Char.ofNat (48 + n.val)) = n.val := by
    decide
  exact this ⟨n, h⟩

theorem hexChar (n : Nat) (h : n < 16) : IsHex (hexdigits.getD n '?') = true ∧
    c!"0123456789abcdef".idxOf (hexdigits.getD n '?').toLower = n := by
  have : ∀ n : Fin 16, IsHex (hexdigits.getD n.val '?') = true ∧
      c!"0123456789abcdef".idxOf (hexdigits.getD n.val '?').toLower = n.val := by decide
  exact this ⟨n, h⟩

theorem decValue_snoc (ds : Str) (c : Char) : decValue (ds ++ [c]) = decValue ds * 10 + c!"0123456789".idxOf c := by
  unfold decValue
  rw [List.reverse_append, List.reverse_singleton, List.singleton_append, List.map_cons, Nat.ofDigits_cons]
  ring_nf

theorem hexValue_snoc (ds : Str) (c : Char) :
    hexValue (ds ++ [c]) = hexValue ds * 16 + c!"0123456789abcdef".idxOf c.toLower := by
  unfold hexValue
  rw [List.reverse_append, List.reverse_singleton, List.singleton_append, List.map_cons, Nat.ofDigits_cons]
  ring_nf

theorem natDec_spec (n : Nat) : (∀ c ∈ natDec n, IsDec c = true) ∧ natDec n ≠ [] ∧ decValue (natDec n) = n := by
  induction n using Nat.strongRecOn with
  | _ n ih =>
    rw [natDec]
    split
    · next h =>
      refine ⟨by simpa using (decChar n h).1, by simp, ?_⟩
      have := decValue_snoc [] (Char.ofNat (48 + n))
      rw [List.nil_append] at this
      rw [this, (decChar n h).2]; simp [decValue]
    · next h =>
      obtain ⟨h1, h2, h3⟩ := ih (n / 10) (by omega)
      have hd := decChar (n % 10) (Nat.mod_lt _ (by omega))
      refine ⟨?_, by simp, ?_⟩
      · intro c hc
        rcases List.mem_append.1 hc with hc | hc
        · exact h1 c hc
        · rw [List.mem_singleton.1 hc]; exact hd.1
      · rw [decValue_snoc, h3, hd.2]; omega

theorem natHex_spec (n : Nat) : (∀ c ∈ natHex n, IsHex c = true) ∧ natHex n ≠ [] ∧ hexValue (natHex n) = n := by
  induction n using Nat.strongRecOn with
  | _ n ih =>
    rw [natHex]
    split
    · next h =>
      refine ⟨by simpa using (hexChar n h).1, by simp, ?_⟩
      have := hexValue_snoc [] (hexdigits.getD n '?')
      rw [List.nil_append] at this
      rw [this, (hexChar n h).2]; simp [hexValue]
    · next h =>
      obtain ⟨h1, h2, h3⟩ := ih (n / 16) (by omega)
      have hd := hexChar (n % 16) (Nat.mod_lt _ (by omega))
      refine ⟨?_, by simp, ?_⟩
      · intro c hc
        rcases List.mem_append.1 hc with hc | hc
        · exact h1 c hc
        · rw [List.mem_singleton.1 hc]; exact hd.1
      · rw [hexValue_snoc, h3, hd.2]; omega

theorem takeWhile_append_stop {p : Char → Bool} {a b : Str} (ha : ∀ c ∈ a, p c = true) (hb : p (peek b) = false) :
    (a ++ b).takeWhile p = a ∧ (a ++ b).dropWhile p = b := by
  rw [List.takeWhile_append_of_pos ha, List.dropWhile_append_of_pos ha]
  cases b with
  | nil => simp
  | cons c t =>
    have : ¬ p c = true := by simpa using hb
    simp [this]

/-- C25: a number printed in decimal is scanned back, whatever non-digit follows. -/
theorem C25_round_trip (n : Nat) (rest : Str) (hr : IsDec (peek rest) = false) :
    (n < 2 ^ 32 → parseUint32 (natDec n ++ rest) = .ok ((natDec n).length, some n, rest)) ∧
    (n < 2 ^ 64 - 1 → parseUint64 (natDec n ++ rest) = .ok ((natDec n).length, some n, rest)) := by
  obtain ⟨h1, h2, h3⟩ := natDec_spec n
  have ht := takeWhile_append_stop h1 hr
  constructor <;> intro hn
  · rw [C25_uint32]
    simp only [ht.1, h3]
    rw [if_pos ⟨h2, hn⟩, List.drop_left]
  · rw [C25_uint64_partial]
    simp only [ht.1, h3]
    rw [if_pos ⟨h2, hn⟩, List.drop_left]

/-- C26: a number printed in hexadecimal is scanned back, whatever non-digit follows. -/
theorem C26_round_trip (n : Nat) (rest : Str) (hr : IsHex (peek rest) = false) (hn : n < 2 ^ 64) :
    parseHexUint64 (natHex n ++ rest) = .ok ((natHex n).length, some n, rest) ∧
    parseHex0xUint64 ('0' :: 'x' :: natHex n ++ rest) = .ok (2 + (natHex n).length, some n, rest) := by
  obtain ⟨h1, h2, h3⟩ := natHex_spec n
  have ht := takeWhile_append_stop h1 hr
  constructor
  · rw [C26_hex]
    simp only [ht.1, h3]
    rw [if_pos ⟨h2, hn⟩, List.drop_left]
  · rw [C26_hex0x]
    simp only [List.cons_append, ht.1, h3]
    rw [if_pos ⟨h2, hn⟩, List.drop_left]

example : natDec 4096 = c!"4096" ∧ natHex 51966 = c!"cafe" := by
  constructor <;> decide +kernel

theorem natDec_injective {a b : Nat} (h : natDec a = natDec b) : a = b := by
  rw [← (natDec_spec a).2.2, h, (natDec_spec b).2.2]

theorem natHex_injective {a b : Nat} (h : natHex a = natHex b) : a = b := by
  rw [← (natHex_spec a).2.2, h, (natHex_spec b).2.2]

end Satyr.CStr
