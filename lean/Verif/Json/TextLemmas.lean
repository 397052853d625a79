import Verif.Json.Text
/-!
# The reader reads back every text of the tokens of a value
-/
namespace Satyr.Json
open Satyr.CStr

theorem unescape_escapeChar (c : Char) (s : Str) :
    readString (escapeChar c ++ s) = (readString s).map fun r => (c :: r.1, r.2) := by
  unfold escapeChar
  split
  · next h => subst h; simp [readString, unescapeChar]
  split
  · next h => subst h; simp [readString, unescapeChar]
  split
  · next h => subst h; simp [readString, unescapeChar]
  split
  · next h => subst h; simp [readString, unescapeChar]
  split
  · next h => subst h; simp [readString, unescapeChar]
  split
  · next h => subst h; simp [readString, unescapeChar]
  split
  · next h => subst h; simp [readString, unescapeChar]
  · next h1 h2 h3 _ _ _ _ =>
    rw [List.cons_append, List.nil_append, readString.eq_def]
    split
    · next heq => exact absurd heq (by simp)
    · next heq => exact absurd (List.cons.inj heq).1 h1
    · next heq => exact absurd (List.cons.inj heq).1 h3
    · next heq => obtain ⟨rfl, rfl⟩ := List.cons.inj heq; rfl

/-- A string literal made of escape sequences is read back. -/
theorem readString_escape (x s : Str) : readString (x.flatMap escapeChar ++ '"' :: s) = some (x, s) := by
  induction x with
  | nil => simp [readString]
  | cons c x ih => rw [List.flatMap_cons, List.append_assoc, unescape_escapeChar, ih]; rfl

theorem isWs_cases {c : Char} (h : isWs c = true) : c = ' ' ∨ c = '\n' ∨ c = '\t' ∨ c = '\r' := by
  simp only [isWs, Bool.or_eq_true, beq_iff_eq] at h
  tauto

theorem next_ws {c : Char} (h : isWs c = true) (s : Str) : next (c :: s) = next s := by
  rcases isWs_cases h with rfl | rfl | rfl | rfl <;> rfl

theorem readDigits_natDec (n : Nat) {c : Char} (h : isWs c = true) (s : Str) :
    readDigits (natDec n ++ c :: s) = some (n, c :: s) := by
  obtain ⟨h1, h2, h3⟩ := natDec_spec n
  have hc : IsDec (peek (c :: s)) = false := by rcases isWs_cases h with rfl | rfl | rfl | rfl <;> rfl
  obtain ⟨ht, hd⟩ := takeWhile_append_stop (p := IsDec) (b := c :: s) h1 hc
  unfold readDigits
  dsimp only
  rw [ht, hd, h3, if_neg]
  rintro (h | h')
  · exact h2 h
  · rcases isWs_cases h with rfl | rfl | rfl | rfl <;> simp [numStop, peek] at h'

theorem next_digit {c : Char} (h : IsDec c = true) (s : Str) :
    next (c :: s) = (readDigits (c :: s)).map fun r => (.num (r.1 : Int), r.2) := by
  have : c ∈ digits10 := List.contains_iff_mem.1 h
  simp only [digits10, List.mem_cons, List.not_mem_nil, or_false] at this
  rcases this with rfl | rfl | rfl | rfl | rfl | rfl | rfl | rfl | rfl | rfl <;> simp [next, isWs]

/-- The tokens of a text are read one after the other. -/
theorem Rend.next {t : Tok} {ts : List Tok} {s : Str} (h : Rend (t :: ts) s) :
    ∃ s', Json.next s = some (t, s') ∧ Rend ts s' := by
  generalize hl : t :: ts = l at h
  induction h with
  | nil => exact absurd hl (by simp)
  | ws hc _ ih => rw [next_ws hc]; exact ih hl
  | lbrace h => obtain ⟨rfl, rfl⟩ := List.cons.inj hl; exact ⟨_, rfl, h⟩
  | rbrace h => obtain ⟨rfl, rfl⟩ := List.cons.inj hl; exact ⟨_, rfl, h⟩
  | lbracket h => obtain ⟨rfl, rfl⟩ := List.cons.inj hl; exact ⟨_, rfl, h⟩
  | rbracket h => obtain ⟨rfl, rfl⟩ := List.cons.inj hl; exact ⟨_, rfl, h⟩
  | colon h => obtain ⟨rfl, rfl⟩ := List.cons.inj hl; exact ⟨_, rfl, h⟩
  | comma h => obtain ⟨rfl, rfl⟩ := List.cons.inj hl; exact ⟨_, rfl, h⟩
  | null h => obtain ⟨rfl, rfl⟩ := List.cons.inj hl; exact ⟨_, rfl, h⟩
  | true h => obtain ⟨rfl, rfl⟩ := List.cons.inj hl; exact ⟨_, rfl, h⟩
  | false h => obtain ⟨rfl, rfl⟩ := List.cons.inj hl; exact ⟨_, rfl, h⟩
  | num n hc h =>
    obtain ⟨rfl, rfl⟩ := List.cons.inj hl
    refine ⟨_, ?_, Rend.ws hc h⟩
    have hr := readDigits_natDec n hc
    obtain ⟨h1, h2, -⟩ := natDec_spec n
    obtain ⟨d, ds, hd⟩ := List.exists_cons_of_ne_nil h2
    rw [hd] at hr h1 ⊢
    rw [List.cons_append, next_digit (h1 d (by simp)), ← List.cons_append, hr]
    rfl
  | str x h =>
    obtain ⟨rfl, rfl⟩ := List.cons.inj hl
    refine ⟨_, ?_, h⟩
    rw [Json.next, readString_escape]
    rfl

/-- Texts of token lists can be put together. -/
theorem Rend.append {ts us : List Tok} {s t : Str} (h : Rend ts s) (h' : Rend us t) : Rend (ts ++ us) (s ++ t) := by
  induction h with
  | nil => exact h'
  | ws hc _ ih => exact Rend.ws hc ih
  | lbrace _ ih => exact Rend.lbrace ih
  | rbrace _ ih => exact Rend.rbrace ih
  | lbracket _ ih => exact Rend.lbracket ih
  | rbracket _ ih => exact Rend.rbracket ih
  | colon _ ih => exact Rend.colon ih
  | comma _ ih => exact Rend.comma ih
  | null _ ih => exact Rend.null ih
  | true _ ih => exact Rend.true ih
  | false _ ih => exact Rend.false ih
  | num n hc _ ih => rw [List.append_assoc]; exact Rend.num n hc ih
  | str x _ ih =>
    have := Rend.str x ih
    simpa using this

theorem escapeChar_no_newline (c : Char) : '\n' ∉ escapeChar c := by
  unfold escapeChar
  split <;> [decide; skip]
  split <;> [decide; skip]
  split <;> [decide; skip]
  split <;> [decide; skip]
  split <;> [decide; skip]
  split <;> [decide; skip]
  split <;> [decide; skip]
  next h _ _ _ _ _ => simpa [eq_comm] using h

theorem escape_no_newline (x : Str) : '\n' ∉ x.flatMap escapeChar := by
  intro h
  obtain ⟨c, -, hc⟩ := List.mem_flatMap.1 h
  exact escapeChar_no_newline c hc

theorem indent_line (n : Int) (l rest : Str) (hl : '\n' ∉ l) :
    indentExceptFirst n (l ++ rest) = l ++ indentExceptFirst n rest := by
  induction l with
  | nil => rfl
  | cons c l ih =>
    have hc : c ≠ '\n' := fun h => hl (by simp [h])
    rw [List.cons_append, indentExceptFirst, ih (fun h => hl (by simp [h])), List.cons_append]
    exact hc

theorem Rend.blanks {n : Nat} {ts : List Tok} {s : Str} (h : Rend ts s) : Rend ts (List.replicate n ' ' ++ s) := by
  induction n with
  | zero => simpa using h
  | succ n ih => rw [List.replicate_succ, List.cons_append]; exact Rend.ws rfl ih

/-- Indentation only adds white space between tokens. -/
theorem Rend.indent (n : Int) {ts : List Tok} {s : Str} (h : Rend ts s) : Rend ts (indentExceptFirst n s) := by
  have hcons : ∀ (c : Char) (s : Str), c ≠ '\n' → indentExceptFirst n (c :: s) = c :: indentExceptFirst n s := by
    intro c s hc
    exact indent_line n [c] s (by simpa [eq_comm] using hc)
  have hws : ∀ (c : Char) (ts : List Tok) (s : Str), isWs c = Bool.true → Rend ts (indentExceptFirst n s) →
      ∃ d r, isWs d = Bool.true ∧ indentExceptFirst n (c :: s) = d :: r ∧ Rend ts r := by
    intro c ts s hc ih
    by_cases h : c = '\n'
    · subst h
      rw [indentExceptFirst]
      refine ⟨_, _, hc, rfl, ?_⟩
      split
      · exact Rend.blanks ih
      · exact ih
    · exact ⟨c, _, hc, hcons c s h, ih⟩
  induction h with
  | nil => exact Rend.nil
  | ws hc _ ih =>
    obtain ⟨d, r, hd, he, hr⟩ := hws _ _ _ hc ih
    rw [he]; exact Rend.ws hd hr
  | lbrace _ ih => rw [hcons _ _ (by decide)]; exact Rend.lbrace ih
  | rbrace _ ih => rw [hcons _ _ (by decide)]; exact Rend.rbrace ih
  | lbracket _ ih => rw [hcons _ _ (by decide)]; exact Rend.lbracket ih
  | rbracket _ ih => rw [hcons _ _ (by decide)]; exact Rend.rbracket ih
  | colon _ ih => rw [hcons _ _ (by decide)]; exact Rend.colon ih
  | comma _ ih => rw [hcons _ _ (by decide)]; exact Rend.comma ih
  | null _ ih => rw [indent_line _ _ _ (by decide)]; exact Rend.null ih
  | true _ ih => rw [indent_line _ _ _ (by decide)]; exact Rend.true ih
  | false _ ih => rw [indent_line _ _ _ (by decide)]; exact Rend.false ih
  | num k hc _ ih =>
    obtain ⟨d, r, hd, he, hr⟩ := hws _ _ _ hc ih
    rw [indent_line _ _ _ (fun hm => by have := (natDec_spec k).1 _ hm; revert this; decide), he]
    exact Rend.num k hd hr
  | str x _ ih =>
    rw [hcons _ _ (by decide), indent_line _ _ _ (escape_no_newline x), hcons _ _ (by decide)]
    exact Rend.str x ih

/-! ## Reading values -/

mutual
/-- A measure of values that bounds the nesting of the reader's calls. -/
def size : Value → Nat
  | .null => 1
  | .bool _ => 1
  | .num _ => 1
  | .str _ => 1
  | .arr l => 1 + sizeItems l
  | .obj l => 1 + sizeMembers l
def sizeItems : List Value → Nat
  | [] => 0
  | j :: l => 1 + size j + sizeItems l
def sizeMembers : List (Str × Value) → Nat
  | [] => 0
  | (_, j) :: l => 1 + size j + sizeMembers l
end

theorem toks_ne_close (j : Value) (ts : List Tok) :
    ∃ t r, toks j ++ ts = t :: r ∧ t ≠ .rbracket ∧ t ≠ .rbrace := by
  cases j with
  | null => exact ⟨_, _, rfl, by simp, by simp⟩
  | bool b => cases b <;> exact ⟨_, _, rfl, by simp, by simp⟩
  | num n => exact ⟨_, _, rfl, by simp, by simp⟩
  | str s => exact ⟨_, _, rfl, by simp, by simp⟩
  | arr l => exact ⟨.lbracket, itemToks l ++ ts, by rw [toks, List.cons_append], by simp, by simp⟩
  | obj l => exact ⟨.lbrace, memberToks l ++ ts, by rw [toks, List.cons_append], by simp, by simp⟩

mutual
theorem readValue_toks (j : Value) (ts : List Tok) (n : Nat) (s : Str) (hn : size j ≤ n) (h : Rend (toks j ++ ts) s) :
    ∃ s', readValue n s = some (j, s') ∧ Rend ts s' := by
  obtain ⟨n, rfl⟩ : ∃ m, n = m + 1 := ⟨n - 1, by cases j <;> simp only [size] at hn <;> omega⟩
  cases j with
  | null =>
    obtain ⟨s1, h1, h2⟩ := Rend.next (by simpa [toks] using h)
    exact ⟨s1, by rw [readValue, h1], h2⟩
  | bool b =>
    cases b with
    | false =>
      obtain ⟨s1, h1, h2⟩ := Rend.next (t := .false) (by simpa [toks] using h)
      exact ⟨s1, by rw [readValue, h1], h2⟩
    | true =>
      obtain ⟨s1, h1, h2⟩ := Rend.next (t := .true) (by simpa [toks] using h)
      exact ⟨s1, by rw [readValue, h1], h2⟩
  | num i =>
    obtain ⟨s1, h1, h2⟩ := Rend.next (by simpa [toks] using h)
    exact ⟨s1, by rw [readValue, h1], h2⟩
  | str x =>
    obtain ⟨s1, h1, h2⟩ := Rend.next (by simpa [toks] using h)
    exact ⟨s1, by rw [readValue, h1], h2⟩
  | arr l =>
    rw [toks, List.cons_append] at h
    obtain ⟨s1, h1, h2⟩ := Rend.next h
    cases l with
    | nil =>
      obtain ⟨s2, h3, h4⟩ := Rend.next (by simpa [itemToks] using h2)
      exact ⟨s2, by rw [readValue, h1]; dsimp only; rw [h3], h4⟩
    | cons j l =>
      have hsz : size j + 1 + sizeItems l ≤ n := by simp only [size, sizeItems] at hn; omega
      obtain ⟨s2, h3, h4⟩ := readItems_toks j l ts n s1 hsz (by simpa [itemToks] using h2)
      obtain ⟨t, r, hr, hb, -⟩ := toks_ne_close j (moreItemToks l ++ ts)
      rw [itemToks, List.append_assoc, hr] at h2
      obtain ⟨s3, h5, -⟩ := Rend.next h2
      refine ⟨s2, ?_, h4⟩
      rw [readValue, h1]; dsimp only; rw [h5]
      split
      · next heq => exact absurd (congrArg Prod.fst (Option.some.inj heq)) hb
      · rw [h3]; rfl
  | obj l =>
    rw [toks, List.cons_append] at h
    obtain ⟨s1, h1, h2⟩ := Rend.next h
    cases l with
    | nil =>
      obtain ⟨s2, h3, h4⟩ := Rend.next (by simpa [memberToks] using h2)
      exact ⟨s2, by rw [readValue, h1]; dsimp only; rw [h3], h4⟩
    | cons m l =>
      obtain ⟨k, j⟩ := m
      have hsz : size j + 1 + sizeMembers l ≤ n := by simp only [size, sizeMembers] at hn; omega
      rw [memberToks, List.cons_append] at h2
      obtain ⟨s3, h5, -⟩ := Rend.next h2
      obtain ⟨s2, h3, h4⟩ := readMembers_toks k j l ts n s1 hsz (by simpa using h2)
      refine ⟨s2, ?_, h4⟩
      rw [readValue, h1]; dsimp only; rw [h5]; dsimp only; rw [h3]; rfl
termination_by n
theorem readItems_toks (j : Value) (l : List Value) (ts : List Tok) (n : Nat) (s : Str)
    (hn : size j + 1 + sizeItems l ≤ n) (h : Rend (toks j ++ (moreItemToks l ++ ts)) s) :
    ∃ s', readItems n s = some (j :: l, s') ∧ Rend ts s' := by
  obtain ⟨n, rfl⟩ : ∃ m, n = m + 1 := ⟨n - 1, by omega⟩
  obtain ⟨s1, h1, h2⟩ := readValue_toks j _ n s (by omega) h
  cases l with
  | nil =>
    obtain ⟨s2, h3, h4⟩ := Rend.next (by simpa [moreItemToks] using h2)
    exact ⟨s2, by rw [readItems, h1]; dsimp only; rw [h3], h4⟩
  | cons j' l =>
    rw [moreItemToks, List.cons_append] at h2
    obtain ⟨s2, h3, h4⟩ := Rend.next h2
    obtain ⟨s3, h5, h6⟩ := readItems_toks j' l ts n s2 (by simp only [sizeItems] at hn; omega)
      (by simpa using h4)
    obtain ⟨t, r, hr, hb, -⟩ := toks_ne_close j' (moreItemToks l ++ ts)
    rw [List.append_assoc, hr] at h4
    obtain ⟨s4, h7, -⟩ := Rend.next h4
    refine ⟨s3, ?_, h6⟩
    rw [readItems, h1]; dsimp only; rw [h3]; dsimp only; rw [h7]
    split
    · next heq => exact absurd (congrArg Prod.fst (Option.some.inj heq)) hb
    · rw [h5]; rfl
termination_by n
theorem readMembers_toks (k : Str) (j : Value) (l : List (Str × Value)) (ts : List Tok) (n : Nat) (s : Str)
    (hn : size j + 1 + sizeMembers l ≤ n) (h : Rend (.str k :: .colon :: (toks j ++ (moreMemberToks l ++ ts))) s) :
    ∃ s', readMembers n s = some ((k, j) :: l, s') ∧ Rend ts s' := by
  obtain ⟨n, rfl⟩ : ∃ m, n = m + 1 := ⟨n - 1, by omega⟩
  obtain ⟨s1, h1, h2⟩ := Rend.next h
  obtain ⟨s2, h3, h4⟩ := Rend.next h2
  obtain ⟨s3, h5, h6⟩ := readValue_toks j _ n s2 (by omega) h4
  cases l with
  | nil =>
    obtain ⟨s4, h7, h8⟩ := Rend.next (by simpa [moreMemberToks] using h6)
    exact ⟨s4, by rw [readMembers, h1]; dsimp only; rw [h3]; dsimp only; rw [h5]; dsimp only; rw [h7], h8⟩
  | cons m l =>
    obtain ⟨k', j'⟩ := m
    rw [moreMemberToks, List.cons_append] at h6
    obtain ⟨s4, h7, h8⟩ := Rend.next h6
    obtain ⟨s5, h9, h10⟩ := readMembers_toks k' j' l ts n s4 (by simp only [sizeMembers] at hn; omega)
      (by simpa using h8)
    rw [List.cons_append] at h8
    obtain ⟨s6, h11, -⟩ := Rend.next h8
    refine ⟨s5, ?_, h10⟩
    rw [readMembers, h1]; dsimp only; rw [h3]; dsimp only; rw [h5]; dsimp only; rw [h7]; dsimp only; rw [h11]; dsimp only; rw [h9]; rfl
termination_by n
end

/-- A text is at least as long as its tokens are many. -/
theorem Rend.length {ts : List Tok} {s : Str} (h : Rend ts s) : ts.length ≤ s.length := by
  induction h with
  | nil => simp
  | num n _ _ ih =>
    have := List.length_pos_of_ne_nil (natDec_spec n).2.1
    simp only [List.length_append, List.length_cons] at *; omega
  | _ => simp only [List.length_append, List.length_cons] at *; omega

mutual
theorem size_le (j : Value) : size j ≤ (toks j).length := by
  cases j with
  | null => simp [size, toks]
  | bool b => simp [size, toks]
  | num n => simp [size, toks]
  | str s => simp [size, toks]
  | arr l => cases l with
    | nil => simp [size, sizeItems, toks, itemToks]
    | cons j l =>
      have := size_le j
      have := sizeItems_le l
      simp only [size, sizeItems, toks, itemToks, List.length_cons, List.length_append]; omega
  | obj l => cases l with
    | nil => simp [size, sizeMembers, toks, memberToks]
    | cons m l =>
      obtain ⟨k, j⟩ := m
      have := size_le j
      have := sizeMembers_le l
      simp only [size, sizeMembers, toks, memberToks, List.length_cons, List.length_append]; omega
theorem sizeItems_le (l : List Value) : sizeItems l + 1 ≤ (moreItemToks l).length := by
  cases l with
  | nil => simp [sizeItems, moreItemToks]
  | cons j l =>
    have := size_le j
    have := sizeItems_le l
    simp only [sizeItems, moreItemToks, List.length_cons, List.length_append]; omega
theorem sizeMembers_le (l : List (Str × Value)) : sizeMembers l + 1 ≤ (moreMemberToks l).length := by
  cases l with
  | nil => simp [sizeMembers, moreMemberToks]
  | cons m l =>
    obtain ⟨k, j⟩ := m
    have := size_le j
    have := sizeMembers_le l
    simp only [sizeMembers, moreMemberToks, List.length_cons, List.length_append]; omega
end

/-- Every text of the tokens of a value is read as that value. -/
theorem parse_toks {j : Value} {s : Str} (h : Rend (toks j) s) : parse s = some j := by
  have h1 := size_le j
  have h2 := h.length
  obtain ⟨s', h3, -⟩ := readValue_toks j [] (2 * s.length + 2) s (by omega) (by simpa using h)
  rw [parse, h3]; rfl

end Satyr.Json
