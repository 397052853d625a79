import Verif.Disasm.Model
import Mathlib.Data.List.Nodup
/-!
# C58: the addresses of called functions
-/
namespace Satyr.Disasm
open Satyr.CStr

/-! ## Specification -/

/-- The different elements of a list, in order of their first occurrence. -/
def firsts : List Nat → List Nat
  | [] => []
  | a :: l => a :: (firsts l).filter (· ≠ a)

/-- The targets of the calls among the instructions. -/
def targets (instructions : List Str) : List Nat := instructions.filterMap callee

/-! ## Proofs -/

theorem isOneOf_iff (i : Str) (ms : List Str) : isOneOf i ms = true ↔ ∃ m ∈ ms, startsWith i m = true := by
  induction ms with
  | nil => simp [isOneOf]
  | cons m ms ih =>
    rw [isOneOf]
    by_cases h : startsWith i m = true
    · simp [h]
    · rw [if_neg h, ih]; simp [h]

theorem callMnems_iff (i : Str) : isOneOf i callMnems = true ↔ ∃ t, i = c!"call" ++ t := by
  rw [isOneOf_iff]
  constructor
  · rintro ⟨m, hm, h⟩
    have hp : c!"call" <+: m := by
      revert m
      simp only [callMnems, List.mem_cons, List.not_mem_nil, or_false]
      rintro m (rfl | rfl | rfl | rfl | rfl) - <;> decide
    have h2 : m <+: i := List.isPrefixOf_iff_prefix.1 h
    obtain ⟨t, ht⟩ := hp.trans h2
    exact ⟨t, ht.symm⟩
  · rintro ⟨t, rfl⟩
    exact ⟨c!"call", by decide, List.isPrefixOf_iff_prefix.2 ⟨t, rfl⟩⟩

/-- C58: the target of an instruction that starts with `call` and has a hexadecimal number as its only operand is that number;
instructions that do not start with `call` have no target. -/
theorem C58_target (suffix w ds w' : Str) (pre : Bool) (hs : NoSpace suffix) (hw : w ≠ []) (hb : ∀ c ∈ w ++ w', isSpace c = true)
    (hd : ∀ c ∈ ds, IsHex c = true) (hne : ds ≠ []) (hv : hexValue ds < 2 ^ 64) :
    callee (c!"call" ++ suffix ++ w ++ ((if pre then c!"0x" else []) ++ ds) ++ w') = some (hexValue ds) ∧
    ∀ i : Str, (¬ ∃ t, i = c!"call" ++ t) → callee i = none := by
  refine ⟨?_, fun i hi => by rw [callee, if_neg fun h => hi ((callMnems_iff i).1 h)]⟩
  have e : c!"call" ++ suffix ++ w ++ ((if pre then c!"0x" else []) ++ ds) ++ w' =
      (c!"call" ++ suffix) ++ (w ++ ((if pre then c!"0x" else []) ++ (ds ++ w'))) := by simp
  rw [e, callee, if_pos ((callMnems_iff _).2 ⟨_, List.append_assoc _ _ _⟩)]
  have hns : NoSpace (c!"call" ++ suffix) := by
    intro c hc
    rcases List.mem_append.1 hc with hc | hc
    · exact (show ∀ c ∈ c!"call", isSpace c = false by decide) c hc
    · exact hs c hc
  have hpw : isSpace (peek (w ++ ((if pre then c!"0x" else []) ++ (ds ++ w')))) = true := by
    rw [peek_append hw]
    cases w with
    | nil => exact absurd rfl hw
    | cons c w => exact hb c (by simp)
  have hn : isSpace (peek ((if pre then c!"0x" else []) ++ (ds ++ w'))) = false := by
    cases pre with
    | true => rfl
    | false =>
      obtain ⟨c, t, rfl⟩ := List.exists_cons_of_ne_nil hne
      exact (hex_char (hd c (by simp))).2.1
  have hr : digitVal (peek w') ≥ 16 ∧ peek w' ≠ 'x' ∧ peek w' ≠ 'X' := by
    cases w' with
    | nil => decide
    | cons c w' =>
      have : ∀ c ∈ c!" \t\r\n\x0b\x0c", digitVal c ≥ 16 ∧ c ≠ 'x' ∧ c ≠ 'X' := by decide
      have hc := hb c (by simp)
      exact this c (by simpa [isSpace] using hc)
  unfold singleAddress
  rw [(field hns (Or.inr hpw)).2, skipWs_append (fun c hc => hb c (by simp [hc])) hn]
  have := scanHex_digits [] ds w' pre (by simp) hd hne hv hr.1 hr.2
  rw [List.nil_append] at this
  rw [this]
  dsimp only
  rw [if_neg]
  simp only [ne_eq, not_not]
  exact List.dropWhile_eq_nil_iff.2 fun c hc => hb c (by simp [hc])

example : callee c!"callq  0x4004d0" = some 0x4004d0 ∧ callee c!"call *%rax" = none ∧ callee c!"mov 0x10" = none := by
  decide +kernel

/-- C58: the mnemonic is only a prefix: other instructions whose names start with `call` count as calls. -/
theorem C58_not_mnemonic : isOneOf c!"retaddr 10" [c!"ret"] = true ∧ callee c!"calltrap 10" = some 16 := by decide +kernel

theorem countCalls_eq (l : List Str) : countCalls l = (targets l).length := by
  induction l with
  | nil => rfl
  | cons i l ih =>
    rw [countCalls, ih]
    cases h : callee i with
    | none => simp [targets, h]
    | some a => simp [targets, h]; omega

/-- What the second loop adds to the array. -/
def added (acc : List Nat) : List Nat → List Nat
  | [] => acc
  | a :: l => if a ∈ acc then added acc l else added (acc ++ [a]) l

theorem added_eq (l acc : List Nat) : added acc l = acc ++ (firsts l).filter (fun a => a ∉ acc) := by
  induction l generalizing acc with
  | nil => simp [added, firsts]
  | cons a l ih =>
    rw [added, firsts]
    by_cases h : a ∈ acc
    · rw [if_pos h, ih, List.filter_cons_of_neg (by simpa using h), List.filter_filter]
      congr 1
      apply List.filter_congr
      intro x _
      by_cases hx : x ∈ acc
      · simp [hx]
      · have : x ≠ a := by rintro rfl; exact hx h
        simp [hx, this]
    · rw [if_neg h, ih, List.filter_cons_of_pos (by simpa using h), List.append_assoc, List.filter_filter]
      congr 1
      rw [List.singleton_append]
      congr 1
      apply List.filter_congr
      intro x _
      simp [not_or]

theorem added_length (l acc : List Nat) : (added acc l).length ≤ acc.length + l.length ∧
    (acc.Nodup → ((added acc l).length = acc.length + l.length ↔ (acc ++ l).Nodup)) := by
  induction l generalizing acc with
  | nil => simp [added]
  | cons a l ih =>
    rw [added]
    by_cases h : a ∈ acc
    · rw [if_pos h]
      have := (ih acc).1
      refine ⟨by simp; omega, fun _ => ⟨fun he => ?_, fun hn => ?_⟩⟩
      · simp at he; omega
      · exact absurd rfl ((List.nodup_append.1 hn).2.2 a h a (by simp))
    · rw [if_neg h]
      have h1 := (ih (acc ++ [a])).1
      refine ⟨by simp at h1 ⊢; omega, fun hn => ?_⟩
      have hn' : (acc ++ [a]).Nodup := by
        rw [List.nodup_append]
        exact ⟨hn, by simp, fun x hx y hy => by rw [List.mem_singleton.1 hy]; rintro rfl; exact h hx⟩
      have h2 := (ih (acc ++ [a])).2 hn'
      rw [List.append_assoc, List.singleton_append] at h2
      rw [← h2]
      simp
      omega

theorem fill_eq (size : Nat) (l : List Str) (acc : List Nat) (h : 8 * (acc.length + (targets l).length) ≤ size) :
    fill size acc l = .ok (added acc (targets l)) := by
  induction l generalizing acc with
  | nil => rfl
  | cons i l ih =>
    rw [fill]
    cases hc : callee i with
    | none =>
      have e : targets (i :: l) = targets l := by simp [targets, hc]
      rw [e] at h ⊢
      exact ih acc h
    | some a =>
      have e : targets (i :: l) = a :: targets l := by simp [targets, hc]
      rw [e] at h ⊢
      rw [List.length_cons] at h
      dsimp only
      rw [added]
      by_cases hm : a ∈ acc
      · rw [if_pos hm, if_pos hm]
        exact ih acc (by omega)
      · rw [if_neg hm, if_neg hm, store, if_pos (by omega)]
        exact ih (acc ++ [a]) (by simp; omega)

/-- C58: if some call target occurs more than once, the result holds the different targets, in order of their first occurrence,
and a terminating 0. -/
theorem C58_addresses_partial (l : List Str) (h : ¬ (targets l).Nodup) : calleeAddresses l = .ok (firsts (targets l) ++ [0]) := by
  unfold calleeAddresses
  rw [countCalls_eq]
  dsimp only
  rw [fill_eq _ _ _ (by simp; omega), Out.bind_ok]
  have h1 := added_length (targets l) []
  have h2 := h1.2 List.nodup_nil
  rw [List.nil_append] at h2
  have hlt : (added [] (targets l)).length < (targets l).length := by
    have ha := h1.1
    have hb : (added [] (targets l)).length ≠ [].length + (targets l).length := fun e => h (h2.1 e)
    simp at ha hb
    omega
  rw [store, if_pos (by omega), added_eq]
  simp

/-- C58 does not hold if all call targets are different, for example if there are no calls: the terminating 0 is written
outside of the array. -/
theorem C58_not_distinct (l : List Str) (h : (targets l).Nodup) : calleeAddresses l = .ub := by
  unfold calleeAddresses
  rw [countCalls_eq]
  dsimp only
  rw [fill_eq _ _ _ (by simp; omega), Out.bind_ok]
  have h2 := ((added_length (targets l) []).2 List.nodup_nil).2 (by simpa using h)
  rw [store, if_neg]
  simp at h2
  omega

/-- The specification lists every target once. -/
theorem firsts_spec (l : List Nat) : (firsts l).Nodup ∧ ∀ a, a ∈ firsts l ↔ a ∈ l := by
  induction l with
  | nil => simp [firsts]
  | cons a l ih =>
    rw [firsts]
    refine ⟨List.nodup_cons.2 ⟨by simp, ih.1.filter _⟩, fun b => ?_⟩
    rw [List.mem_cons, List.mem_filter, List.mem_cons, ih.2]
    by_cases hb : b = a <;> simp [hb]

/-- C58: an instruction is said to be present exactly if one of the instructions starts with one of the mnemonics. -/
theorem C58_present (ms l : List Str) : present ms l = true ↔ ∃ i ∈ l, ∃ m ∈ ms, m <+: i := by
  induction l with
  | nil => simp [present]
  | cons i l ih =>
    rw [present]
    have h0 : isOneOf i ms = true ↔ ∃ m ∈ ms, m <+: i := (isOneOf_iff i ms).trans
      ⟨fun ⟨m, h1, h2⟩ => ⟨m, h1, List.isPrefixOf_iff_prefix.1 h2⟩, fun ⟨m, h1, h2⟩ => ⟨m, h1, List.isPrefixOf_iff_prefix.2 h2⟩⟩
    by_cases h : isOneOf i ms = true
    · rw [if_pos h]
      exact ⟨fun _ => ⟨i, by simp, h0.1 h⟩, fun _ => rfl⟩
    · rw [if_neg h, ih]
      constructor
      · rintro ⟨j, hj, hm⟩; exact ⟨j, by simp [hj], hm⟩
      · rintro ⟨j, hj, hm⟩
        rcases List.mem_cons.1 hj with rfl | hj
        · exact absurd (h0.2 hm) h
        · exact ⟨j, hj, hm⟩

/-- C58: the text of the instructions has one line for each of them: the instructions are what is between the ends of its
lines. -/
theorem C58_text (l : List Str) (hl : ∀ i ∈ l, '\n' ∉ i) : (toText l).splitOn '\n' = l ++ [[]] := by
  induction l with
  | nil => rfl
  | cons i l ih =>
    have h0 : ∀ c ∈ i, (c == '\n') = false := by
      intro c hc
      rw [beq_eq_false_iff_ne]
      rintro rfl
      exact hl i (by simp) hc
    have ih' := ih fun j hj => hl j (by simp [hj])
    rw [List.splitOn] at ih' ⊢
    rw [toText, List.splitOnP_append_cons_of_forall_mem h0 '\n' rfl, ih']
    rfl

example : present [c!"ret", c!"jmp"] [c!"push %rbp", c!"retq"] = true := by decide +kernel
example : toText [c!"push %rbp", c!"retq"] = c!"push %rbp\nretq\n" := by decide +kernel

example : calleeAddresses [c!"callq 10", c!"ret", c!"callq 20", c!"callq 10"] = .ok [0x10, 0x20, 0] := by decide +kernel
example : calleeAddresses [c!"callq 10", c!"callq 20"] = .ub := by decide +kernel
example : calleeAddresses [] = .ub := by decide +kernel

end Satyr.Disasm
