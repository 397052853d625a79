import Verif.Json.Lemmas
/-!
# C39: writing strings
-/
namespace Satyr.Json
open Satyr.CStr

/-- C39: a written string is a JSON document that is read back as that string. -/
theorem C39_round_trip (s : Str) : parse (escaped s) = some (.str s) := parse_toks (j := .str s) (rend_escaped s)

example : escaped c!"a\"b\\c\nd" = c!"\"a\\\"b\\\\c\\nd\"" ∧ parse (escaped c!"a\"b\\c\nd") = some (.str c!"a\"b\\c\nd") :=
  ⟨by decide, C39_round_trip _⟩

/-- C39: inside a document the written string ends exactly where it should: a reader that has passed the opening quote
reads the string and stops behind the closing quote, whatever follows. -/
theorem C39_embedded (s rest : Str) : ∃ body, escaped s ++ rest = '"' :: body ∧ readString body = some (s, rest) := by
  refine ⟨s.flatMap escapeChar ++ '"' :: rest, ?_, readString_escape s rest⟩
  rw [escaped, escape_eq]
  simp

/-- C39: a written string is a single line. -/
theorem C39_no_newline (s : Str) : '\n' ∉ escaped s := by
  rw [escaped, escape_eq]
  have := escape_no_newline s
  simp [this]

/-- C39: different strings are written differently. -/
theorem C39_injective (s t : Str) (h : escaped s = escaped t) : s = t := by
  have h1 := C39_round_trip s
  rw [h, C39_round_trip t] at h1
  exact (Value.str.inj (Option.some.inj h1)).symm

/-- A control character; RFC 8259 does not allow them inside of strings. -/
def isControl (c : Char) : Bool := decide (c.toNat < 32)

/-- The control characters that have an escape sequence of two characters. -/
def shortEscape (c : Char) : Bool := c!"\n\r\x0c\x08\t".contains c

theorem escapeChar_control (c : Char) (h : isControl c = true → shortEscape c = true) :
    ∀ d ∈ escapeChar c, isControl d = false := by
  unfold escapeChar
  split <;> [decide; skip]
  split <;> [decide; skip]
  split <;> [decide; skip]
  split <;> [decide; skip]
  split <;> [decide; skip]
  split <;> [decide; skip]
  split <;> [decide; skip]
  next h1 h2 h3 h4 h5 h6 h7 =>
  intro d hd
  rw [List.mem_singleton] at hd
  subst hd
  cases hc : isControl d with
  | false => rfl
  | true =>
    have := h hc
    simp [shortEscape] at this
    tauto

/-- C39, as RFC 8259 has it: if the only control characters of the string are line feed, carriage return, form feed,
backspace and tab, the written string has no control character. -/
theorem C39_strict_partial (s : Str) (h : ∀ c ∈ s, isControl c = true → shortEscape c = true) :
    ∀ d ∈ escaped s, isControl d = false := by
  intro d hd
  rw [escaped, escape_eq, List.mem_cons, List.mem_append, List.mem_singleton] at hd
  rcases hd with rfl | hd | rfl
  · decide
  · obtain ⟨c, hc, hd⟩ := List.mem_flatMap.1 hd
    exact escapeChar_control c (h c hc) d hd
  · decide

/-- The restriction is necessary: other control characters are written raw, which RFC 8259 forbids (json-c accepts it). -/
theorem C39_not_strict : ¬ ∀ s, NoNul s → ∀ d ∈ escaped s, isControl d = false := by
  intro h
  have := h c!"\x1b" (by decide) '\x1b' (by decide)
  revert this
  decide

end Satyr.Json
