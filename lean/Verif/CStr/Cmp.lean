import Verif.CStr.Model
import Mathlib.Tactic.ByContra
/-!
# String comparison and substring search

`strcmp`, `g_strcmp0` and `strstr` are library functions; modelled here by their documented behaviour.
-/
namespace Satyr.CStr

/-- `strcmp`, normalised to -1, 0, 1 (only the sign is specified by the C standard). -/
def strcmp : Str → Str → Int
  | [], [] => 0
  | [], _ :: _ => -1
  | _ :: _, [] => 1
  | a :: s, b :: t => if a = b then strcmp s t else if a.toNat < b.toNat then -1 else 1

/-- `g_strcmp0`: NULL sorts before every string. -/
def strcmp0 : Option Str → Option Str → Int
  | none, none => 0
  | none, some _ => -1
  | some _, none => 1
  | some a, some b => strcmp a b

/-- `strstr(haystack, needle) != NULL`. -/
def strstrHas (h n : Str) : Bool :=
  match h with
  | [] => n.isEmpty
  | c :: t => startsWith (c :: t) n || strstrHas t n

@[simp] theorem strcmp_self (a : Str) : strcmp a a = 0 := by
  induction a with
  | nil => rfl
  | cons c a ih => simp [strcmp, ih]

theorem strcmp_eq_zero {a b : Str} : strcmp a b = 0 ↔ a = b := by
  constructor
  · induction a generalizing b with
    | nil => cases b <;> simp [strcmp]
    | cons c a ih =>
      cases b with
      | nil => simp [strcmp]
      | cons d b =>
        unfold strcmp
        split
        · next h => subst h; intro h; rw [ih h]
        · split <;> intro h <;> simp at h
  · rintro rfl; simp

theorem char_lt_or {a b : Char} (h : a ≠ b) : a.toNat < b.toNat ∨ b.toNat < a.toNat := by
  have : a.toNat ≠ b.toNat := fun hh => h (Char.toNat_inj.1 hh)
  omega

theorem strcmp_swap (a b : Str) : strcmp b a = - strcmp a b := by
  induction a generalizing b with
  | nil => cases b <;> simp [strcmp]
  | cons c a ih =>
    cases b with
    | nil => simp [strcmp]
    | cons d b =>
      unfold strcmp
      by_cases h : c = d
      · subst h; simp [ih]
      · have h' : d ≠ c := fun e => h e.symm
        rw [if_neg h, if_neg h']
        rcases char_lt_or h with hl | hl
        · have : ¬ d.toNat < c.toNat := by omega
          simp [hl, this]
        · have : ¬ c.toNat < d.toNat := by omega
          simp [hl, this]

theorem strcmp_range (a b : Str) : strcmp a b = -1 ∨ strcmp a b = 0 ∨ strcmp a b = 1 := by
  induction a generalizing b with
  | nil => cases b <;> simp [strcmp]
  | cons c a ih =>
    cases b with
    | nil => simp [strcmp]
    | cons d b =>
      unfold strcmp
      split
      · exact ih b
      · split <;> simp

theorem strcmp_trans {a b c : Str} (h1 : strcmp a b ≤ 0) (h2 : strcmp b c ≤ 0) : strcmp a c ≤ 0 := by
  induction a generalizing b c with
  | nil => cases c <;> simp [strcmp]
  | cons x a ih =>
    cases b with
    | nil => simp [strcmp] at h1
    | cons y b =>
      cases c with
      | nil => simp [strcmp] at h2
      | cons z c =>
        unfold strcmp at h1 h2 ⊢
        by_cases hxy : x = y
        · subst hxy
          rw [if_pos rfl] at h1
          by_cases hxz : x = z
          · subst hxz
            rw [if_pos rfl] at h2 ⊢
            exact ih h1 h2
          · rw [if_neg hxz] at h2 ⊢
            exact h2
        · rw [if_neg hxy] at h1
          have hlt : x.toNat < y.toNat := by by_contra hh; rw [if_neg hh] at h1; omega
          by_cases hyz : y = z
          · subst hyz
            rw [if_neg hxy, if_pos hlt]; omega
          · rw [if_neg hyz] at h2
            have hlt2 : y.toNat < z.toNat := by by_contra hh; rw [if_neg hh] at h2; omega
            have : x ≠ z := by rintro rfl; omega
            rw [if_neg this, if_pos (by omega)]; omega

@[simp] theorem strcmp0_self (a : Option Str) : strcmp0 a a = 0 := by cases a <;> simp [strcmp0]

theorem strcmp0_eq_zero {a b : Option Str} : strcmp0 a b = 0 ↔ a = b := by
  cases a <;> cases b <;> simp [strcmp0, strcmp_eq_zero]

theorem strcmp0_swap (a b : Option Str) : strcmp0 b a = - strcmp0 a b := by
  cases a <;> cases b
  · rfl
  · rfl
  · rfl
  · exact strcmp_swap _ _

theorem strcmp0_trans {a b c : Option Str} (h1 : strcmp0 a b ≤ 0) (h2 : strcmp0 b c ≤ 0) : strcmp0 a c ≤ 0 := by
  cases a <;> cases b <;> cases c <;> simp_all [strcmp0]
  exact strcmp_trans h1 h2

theorem strstrHas_iff (h n : Str) : strstrHas h n = true ↔ ∃ a b, h = a ++ n ++ b := by
  induction h with
  | nil =>
    unfold strstrHas
    rw [List.isEmpty_iff]
    constructor
    · rintro rfl; exact ⟨[], [], rfl⟩
    · rintro ⟨a, b, h⟩
      have := h.symm
      simp only [List.append_eq_nil_iff] at this
      exact this.1.2
  | cons c t ih =>
    unfold strstrHas startsWith
    rw [Bool.or_eq_true, ih, List.isPrefixOf_iff_prefix]
    constructor
    · rintro (⟨b, hb⟩ | ⟨a, b, hab⟩)
      · exact ⟨[], b, by simp [hb]⟩
      · exact ⟨c :: a, b, by simp [hab]⟩
    · rintro ⟨a, b, hab⟩
      cases a with
      | nil => exact Or.inl ⟨b, by simpa using hab.symm⟩
      | cons x a =>
        simp only [List.cons_append, List.cons.injEq] at hab
        exact Or.inr ⟨a, b, hab.2⟩

end Satyr.CStr
