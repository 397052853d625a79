import Verif.CStr.Cmp
import Verif.CStr.Lemmas
/-!
# Searching characters, with positions

A pointer into a given string is a position here.
-/
namespace Satyr.CStr

/-- `strchr`, as the position found. -/
def strchrI (c : Char) : Str → Option Nat
  | [] => none
  | x :: s => if x = c then some 0 else (strchrI c s).map (· + 1)

/-- `strrchr`, as the position found. -/
def strrchrI (c : Char) : Str → Option Nat
  | [] => none
  | x :: s =>
    match strrchrI c s with
    | some i => some (i + 1)
    | none => if x = c then some 0 else none

/-- `strchrnul`, as the position found. -/
def strchrnulI (c : Char) (s : Str) : Nat := (s.takeWhile fun x => x ≠ c).length

/-- `strstr`, as the position found. -/
def strstrI (n : Str) : Str → Option Nat
  | [] => if n = [] then some 0 else none
  | x :: s => if startsWith (x :: s) n then some 0 else (strstrI n s).map (· + 1)

theorem strchrI_none {c : Char} {s : Str} : strchrI c s = none ↔ c ∉ s := by
  induction s with
  | nil => simp [strchrI]
  | cons x s ih =>
    rw [strchrI]
    by_cases h : x = c
    · simp [h]
    · rw [if_neg h, Option.map_eq_none_iff, ih, List.mem_cons, not_or]
      exact ⟨fun h' => ⟨fun e => h e.symm, h'⟩, fun h' => h'.2⟩

theorem strchrI_some {c : Char} {s : Str} {i : Nat} :
    strchrI c s = some i ↔ ∃ a b, s = a ++ c :: b ∧ c ∉ a ∧ a.length = i := by
  induction s generalizing i with
  | nil => simp [strchrI]
  | cons x s ih =>
    rw [strchrI]
    by_cases h : x = c
    · subst h
      rw [if_pos rfl]
      constructor
      · intro h; cases h; exact ⟨[], s, rfl, by simp, rfl⟩
      · rintro ⟨a, b, h1, h2, h3⟩
        cases a with
        | nil => subst h3; rfl
        | cons y a => rw [List.cons_append, List.cons.injEq] at h1; exact absurd (by simp [h1.1]) h2
    · rw [if_neg h, Option.map_eq_some_iff]
      constructor
      · rintro ⟨j, hj, rfl⟩
        obtain ⟨a, b, h1, h2, h3⟩ := ih.1 hj
        exact ⟨x :: a, b, by rw [h1]; rfl, by rw [List.mem_cons, not_or]; exact ⟨fun e => h e.symm, h2⟩, by simp [h3]⟩
      · rintro ⟨a, b, h1, h2, h3⟩
        cases a with
        | nil => rw [List.nil_append, List.cons.injEq] at h1; exact absurd h1.1 h
        | cons y a =>
          rw [List.cons_append, List.cons.injEq] at h1
          exact ⟨a.length, ih.2 ⟨a, b, h1.2, fun hm => h2 (by simp [hm]), rfl⟩, by simpa using h3⟩

theorem strrchrI_none {c : Char} {s : Str} : strrchrI c s = none ↔ c ∉ s := by
  induction s with
  | nil => simp [strrchrI]
  | cons x s ih =>
    rw [strrchrI, List.mem_cons, not_or]
    cases h : strrchrI c s with
    | some i =>
      have : c ∈ s := by by_contra hc; rw [ih.2 hc] at h; cases h
      simp [this]
    | none =>
      have := ih.1 h
      by_cases hx : x = c
      · simp [hx]
      · simp only [hx, if_false, this, not_false_iff, and_true, true_iff]; exact fun e => hx e.symm

theorem strrchrI_append {c : Char} {a b : Str} (h : c ∉ b) : strrchrI c (a ++ c :: b) = some a.length := by
  induction a with
  | nil => rw [List.nil_append, strrchrI, strrchrI_none.2 h]; simp
  | cons x a ih => rw [List.cons_append, strrchrI, ih]; rfl

theorem last_split {c : Char} {s : Str} (h : c ∈ s) : ∃ a b, s = a ++ c :: b ∧ c ∉ b := by
  induction s with
  | nil => simp at h
  | cons x s ih =>
    by_cases hs : c ∈ s
    · obtain ⟨a, b, h1, h2⟩ := ih hs
      exact ⟨x :: a, b, by rw [h1]; rfl, h2⟩
    · rw [List.mem_cons] at h
      rcases h with h | h
      · exact ⟨[], s, by rw [h]; rfl, hs⟩
      · exact absurd h hs

theorem first_split {c : Char} {s : Str} (h : c ∈ s) : ∃ a b, s = a ++ c :: b ∧ c ∉ a := by
  cases hi : strchrI c s with
  | none => exact absurd h (strchrI_none.1 hi)
  | some i =>
    obtain ⟨a, b, h1, h2, _⟩ := strchrI_some.1 hi
    exact ⟨a, b, h1, h2⟩

theorem strrchrI_some {c : Char} {s : Str} {i : Nat} :
    strrchrI c s = some i ↔ ∃ a b, s = a ++ c :: b ∧ c ∉ b ∧ a.length = i := by
  constructor
  · intro h
    have hm : c ∈ s := by by_contra hc; rw [strrchrI_none.2 hc] at h; cases h
    obtain ⟨a, b, h1, h2⟩ := last_split hm
    refine ⟨a, b, h1, h2, ?_⟩
    rw [h1, strrchrI_append h2] at h
    exact Option.some.inj h
  · rintro ⟨a, b, rfl, h2, rfl⟩
    exact strrchrI_append h2

theorem takeWhile_ne_append {c : Char} {a : Str} (h : c ∉ a) (b : Str) :
    (a ++ c :: b).takeWhile (fun x => x ≠ c) = a := by
  induction a with
  | nil => simp
  | cons x a ih =>
    rw [List.mem_cons, not_or] at h
    rw [List.cons_append, List.takeWhile_cons_of_pos (by simpa using fun e => h.1 e.symm), ih h.2]

theorem takeWhile_ne_all {c : Char} {a : Str} (h : c ∉ a) : a.takeWhile (fun x => x ≠ c) = a := by
  rw [List.takeWhile_eq_self_iff]
  intro x hx
  simp only [ne_eq, decide_not, Bool.not_eq_true', decide_eq_false_iff_not]
  rintro rfl; exact h hx

theorem strchrnulI_append {c : Char} {a : Str} (h : c ∉ a) (b : Str) : strchrnulI c (a ++ c :: b) = a.length := by
  rw [strchrnulI, takeWhile_ne_append h]

theorem strchrnulI_all {c : Char} {a : Str} (h : c ∉ a) : strchrnulI c a = a.length := by
  rw [strchrnulI, takeWhile_ne_all h]

/-- A string is a sequence of lines ended by newlines and a last line without one. -/
theorem lines_of (s : Str) : ∃ (ls : List Str) (last : Str), s = ls.flatMap (fun l => l ++ ['\n']) ++ last ∧
    (∀ l ∈ ls, '\n' ∉ l) ∧ '\n' ∉ last := by
  induction s with
  | nil => exact ⟨[], [], rfl, by simp, by simp⟩
  | cons x s ih =>
    obtain ⟨ls, last, h1, h2, h3⟩ := ih
    by_cases hx : x = '\n'
    · refine ⟨[] :: ls, last, by rw [h1, hx]; simp, ?_, h3⟩
      intro l hl
      rcases List.mem_cons.1 hl with hl | hl
      · simp [hl]
      · exact h2 l hl
    · have hx' : ∀ l : Str, '\n' ∉ l → '\n' ∉ x :: l := fun l hl => by
        rw [List.mem_cons, not_or]; exact ⟨fun e => hx e.symm, hl⟩
      cases ls with
      | nil => exact ⟨[], x :: last, by rw [h1]; rfl, by simp, hx' _ h3⟩
      | cons l ls =>
        refine ⟨(x :: l) :: ls, last, by rw [h1]; simp, ?_, h3⟩
        intro l' hl'
        rcases List.mem_cons.1 hl' with hl' | hl'
        · rw [hl']; exact hx' _ (h2 l (by simp))
        · exact h2 l' (by simp [hl'])

theorem startsWith_split (h n : Str) : startsWith h n = true ↔ ∃ t, h = n ++ t := by
  unfold startsWith
  rw [List.isPrefixOf_iff_prefix]
  exact ⟨fun ⟨t, ht⟩ => ⟨t, ht.symm⟩, fun ⟨t, ht⟩ => ⟨t, ht.symm⟩⟩

theorem strstrI_some {n s : Str} {i : Nat} (h : strstrI n s = some i) :
    (∃ a b, s = a ++ n ++ b ∧ a.length = i) ∧ ∀ a b, s = a ++ n ++ b → i ≤ a.length := by
  induction s generalizing i with
  | nil =>
    rw [strstrI] at h
    split at h
    · next hn => cases h; exact ⟨⟨[], [], by simp [hn], rfl⟩, fun _ _ _ => Nat.zero_le _⟩
    · cases h
  | cons x s ih =>
    rw [strstrI] at h
    split at h
    · next hs =>
      cases h
      obtain ⟨t, ht⟩ := (startsWith_split _ _).1 hs
      exact ⟨⟨[], t, by simpa using ht, rfl⟩, fun _ _ _ => Nat.zero_le _⟩
    · next hs =>
      rw [Option.map_eq_some_iff] at h
      obtain ⟨j, hj, rfl⟩ := h
      obtain ⟨⟨a, b, h1, h2⟩, h3⟩ := ih hj
      refine ⟨⟨x :: a, b, by rw [h1]; rfl, by simp [h2]⟩, fun a' b' h' => ?_⟩
      cases a' with
      | nil => exact absurd ((startsWith_split _ _).2 ⟨b', by simpa using h'⟩) hs
      | cons y a' =>
        rw [List.cons_append, List.cons_append, List.cons.injEq] at h'
        have := h3 a' b' h'.2
        simpa using this

theorem strstrI_none {n s : Str} (h : strstrI n s = none) : ¬ ∃ a b, s = a ++ n ++ b := by
  induction s with
  | nil =>
    rw [strstrI] at h
    split at h
    · cases h
    · next hn =>
      rintro ⟨a, b, hab⟩
      have : n = [] := by
        have := congrArg List.length hab
        simp at this
        exact List.eq_nil_of_length_eq_zero (by omega)
      exact hn this
  | cons x s ih =>
    rw [strstrI] at h
    split at h
    · cases h
    · next hs =>
      rintro ⟨a, b, hab⟩
      cases a with
      | nil => exact hs ((startsWith_split _ _).2 ⟨b, by simpa using hab⟩)
      | cons y a =>
        rw [List.cons_append, List.cons_append, List.cons.injEq] at hab
        exact ih (by simpa using h) ⟨a, b, hab.2⟩

end Satyr.CStr
