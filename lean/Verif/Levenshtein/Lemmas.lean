import Verif.Levenshtein.Model
import Verif.Levenshtein.Spec
import Mathlib.Data.List.Induction
/-! Helper lemmas: the recursive edit distance, its optimality, and the correctness of the diagonal DP. -/
namespace Satyr.Levenshtein

variable {F : Type} (eq : F → F → Bool) (sw : Bool)

/-- Recursive edit distance of two reversed sequences. -/
def D : List F → List F → Nat
  | [], b => b.length
  | x :: a, [] => (x :: a).length
  | x :: a, y :: b =>
    if eq x y then D a b
    else
      let d := min (min (D a b) (D (x :: a) b)) (D a (y :: b)) + 1
      match a, b with
      | x1 :: a', y1 :: b' => if sw && eq x y1 && eq x1 y then min d (D a' b' + 1) else d
      | _, _ => d
termination_by a b => a.length + b.length

theorem D_nil (b : List F) : D eq sw [] b = b.length := by unfold D; rfl
theorem D_nil' (a : List F) : D eq sw a [] = a.length := by cases a <;> (unfold D; rfl)

theorem D_eq {x y : F} (a b : List F) (h : eq x y = true) : D eq sw (x :: a) (y :: b) = D eq sw a b := by
  conv => lhs; unfold D
  simp [h]

/-- Candidate of a transposition. -/
def swapCand (x y : F) (a b : List F) (d : Nat) : Nat :=
  match a, b with
  | x1 :: a', y1 :: b' => if sw && eq x y1 && eq x1 y then min d (D eq sw a' b' + 1) else d
  | _, _ => d

theorem D_ne {x y : F} (a b : List F) (h : eq x y = false) : D eq sw (x :: a) (y :: b) =
    swapCand eq sw x y a b (min (min (D eq sw a b) (D eq sw (x :: a) b)) (D eq sw a (y :: b)) + 1) := by
  conv => lhs; unfold D
  simp only [h, Bool.false_eq_true, if_false, swapCand]

theorem swapCand_le (x y : F) (a b : List F) (d : Nat) : swapCand eq sw x y a b d ≤ d := by
  unfold swapCand
  split
  · split <;> omega
  · omega

theorem swapCand_cases (x y : F) (a b : List F) (d : Nat) : swapCand eq sw x y a b d = d ∨
    ∃ x1 a' y1 b', a = x1 :: a' ∧ b = y1 :: b' ∧ sw = true ∧ eq x y1 = true ∧ eq x1 y = true ∧
      swapCand eq sw x y a b d = D eq sw a' b' + 1 := by
  unfold swapCand
  split
  · next x1 a' y1 b' =>
    split
    · next h =>
      simp only [Bool.and_eq_true] at h
      rcases Nat.le_total d (D eq sw a' b' + 1) with h1 | h1
      · left; omega
      · right; exact ⟨x1, a', y1, b', rfl, rfl, h.1.1, h.1.2, h.2, by omega⟩
    · left; rfl
  · left; rfl

/-- All one-step bounds, by induction on the total length. -/
theorem D_bounds (n : Nat) : ∀ (x y : F) (a b : List F), a.length + b.length ≤ n →
    D eq sw (x :: a) b ≤ D eq sw a b + 1 ∧ D eq sw a b ≤ D eq sw (x :: a) b + 1 ∧
    D eq sw a (y :: b) ≤ D eq sw a b + 1 ∧ D eq sw a b ≤ D eq sw a (y :: b) + 1 ∧
    D eq sw (x :: a) (y :: b) ≤ D eq sw a b + 1 := by
  induction n using Nat.strongRecOn with
  | _ n ih =>
  -- deletion bounds
  have hA : ∀ (x : F) (a b : List F), a.length + b.length ≤ n →
      D eq sw (x :: a) b ≤ D eq sw a b + 1 ∧ D eq sw a b ≤ D eq sw (x :: a) b + 1 := by
    intro x a b hn
    rcases b with _ | ⟨y, b⟩
    · simp [D_nil']; omega
    · have i1 := ih (a.length + b.length) (by simp at hn; omega) x y a b (Nat.le_refl _)
      by_cases h : eq x y = true
      · rw [D_eq eq sw a b h]; omega
      · have h' : eq x y = false := by simpa using h
        rw [D_ne eq sw a b h']
        have h1 := swapCand_le eq sw x y a b (min (min (D eq sw a b) (D eq sw (x :: a) b)) (D eq sw a (y :: b)) + 1)
        rcases swapCand_cases eq sw x y a b (min (min (D eq sw a b) (D eq sw (x :: a) b)) (D eq sw a (y :: b)) + 1) with h2 | ⟨x1, a', y1, b', rfl, rfl, -, -, -, h2⟩
        · omega
        · have i2 := ih (a'.length + (b'.length + 1)) (by simp at hn; omega) x1 y a' (y1 :: b') (by simp)
          have i3 := ih (a'.length + b'.length) (by simp at hn; omega) x1 y1 a' b' (by simp)
          omega
  have hB : ∀ (y : F) (a b : List F), a.length + b.length ≤ n →
      D eq sw a (y :: b) ≤ D eq sw a b + 1 ∧ D eq sw a b ≤ D eq sw a (y :: b) + 1 := by
    intro y a b hn
    rcases a with _ | ⟨x, a⟩
    · simp [D_nil]; omega
    · have i1 := ih (a.length + b.length) (by simp at hn; omega) x y a b (Nat.le_refl _)
      by_cases h : eq x y = true
      · rw [D_eq eq sw a b h]; omega
      · have h' : eq x y = false := by simpa using h
        rw [D_ne eq sw a b h']
        have h1 := swapCand_le eq sw x y a b (min (min (D eq sw a b) (D eq sw (x :: a) b)) (D eq sw a (y :: b)) + 1)
        rcases swapCand_cases eq sw x y a b (min (min (D eq sw a b) (D eq sw (x :: a) b)) (D eq sw a (y :: b)) + 1) with h2 | ⟨x1, a', y1, b', rfl, rfl, -, -, -, h2⟩
        · omega
        · have i2 := ih (a'.length + 1 + b'.length) (by simp at hn; omega) x y1 (x1 :: a') b' (by simp)
          have i3 := ih (a'.length + b'.length) (by simp at hn; omega) x1 y1 a' b' (by simp)
          omega
  intro x y a b hn
  refine ⟨(hA x a b hn).1, (hA x a b hn).2, (hB y a b hn).1, (hB y a b hn).2, ?_⟩
  by_cases h : eq x y = true
  · rw [D_eq eq sw a b h]; omega
  · have h' : eq x y = false := by simpa using h
    rw [D_ne eq sw a b h']
    have h1 := swapCand_le eq sw x y a b (min (min (D eq sw a b) (D eq sw (x :: a) b)) (D eq sw a (y :: b)) + 1)
    omega

theorem D_del (x : F) (a b : List F) : D eq sw (x :: a) b ≤ D eq sw a b + 1 :=
  (D_bounds eq sw _ x x a b (Nat.le_refl _)).1
theorem D_ins (y : F) (a b : List F) : D eq sw a (y :: b) ≤ D eq sw a b + 1 :=
  (D_bounds eq sw _ y y a b (Nat.le_refl _)).2.2.1
theorem D_sub (x y : F) (a b : List F) : D eq sw (x :: a) (y :: b) ≤ D eq sw a b + 1 :=
  (D_bounds eq sw _ x y a b (Nat.le_refl _)).2.2.2.2
theorem D_swap {x1 x2 y1 y2 : F} (a b : List F) (hs : sw = true) (h1 : eq x2 y1 = true) (h2 : eq x1 y2 = true) :
    D eq sw (x2 :: x1 :: a) (y2 :: y1 :: b) ≤ D eq sw a b + 1 := by
  by_cases h : eq x2 y2 = true
  · rw [D_eq eq sw _ _ h]; exact D_sub eq sw x1 y1 a b
  · rw [D_ne eq sw _ _ (by simpa using h)]
    unfold swapCand
    simp only [hs, h1, h2, Bool.and_self, if_true]
    omega

/-! ### Optimality -/

/-- Every alignment costs at least `D` of the reversed sequences. -/
theorem D_le_cost (bs : List (Block F)) (h : ∀ B ∈ bs, B.Ok eq sw) :
    D eq sw (bs.flatMap Block.src).reverse (bs.flatMap Block.dst).reverse ≤ (bs.map Block.cost).sum := by
  induction bs using List.reverseRecOn with
  | nil => simp [D_nil]
  | append_singleton bs B ih =>
    have ih := ih (fun B hB => h B (by simp [hB]))
    have hB := h B (by simp)
    simp only [List.flatMap_append, List.reverse_append, List.map_append, List.sum_append, List.flatMap_cons,
      List.flatMap_nil, List.append_nil, List.map_cons, List.map_nil, List.sum_cons, List.sum_nil]
    generalize (bs.flatMap Block.src).reverse = a at *
    generalize (bs.flatMap Block.dst).reverse = b at *
    cases B with
    | keep x y =>
      simp only [Block.Ok] at hB
      simp only [Block.src, Block.dst, Block.cost, List.reverse_cons, List.reverse_nil, List.nil_append,
        List.cons_append]
      rw [D_eq eq sw _ _ hB]; omega
    | subst x y =>
      have := D_sub eq sw x y a b
      simp only [Block.src, Block.dst, Block.cost, List.reverse_cons, List.reverse_nil, List.nil_append,
        List.cons_append]; omega
    | del x =>
      have := D_del eq sw x a b
      simp only [Block.src, Block.dst, Block.cost, List.reverse_cons, List.reverse_nil, List.nil_append,
        List.cons_append]; omega
    | ins y =>
      have := D_ins eq sw y a b
      simp only [Block.src, Block.dst, Block.cost, List.reverse_cons, List.reverse_nil, List.nil_append,
        List.cons_append]; omega
    | swap x1 x2 y1 y2 =>
      simp only [Block.Ok] at hB
      have := D_swap eq sw a b hB.1 hB.2.1 hB.2.2
      simp only [Block.src, Block.dst, Block.cost, List.reverse_cons, List.reverse_nil, List.nil_append,
        List.cons_append]; omega

theorem alignable_snoc {eq : F → F → Bool} {sw : Bool} {a b : List F} {k : Nat} (h : Alignable eq sw a b k)
    (B : Block F) (hB : B.Ok eq sw) : Alignable eq sw (a ++ B.src) (b ++ B.dst) (k + B.cost) := by
  obtain ⟨bs, h1, h2, h3, h4⟩ := h
  refine ⟨bs ++ [B], ?_, by simp [h2], by simp [h3], by simp [h4]⟩
  intro B' hB'
  rcases List.mem_append.1 hB' with h | h
  · exact h1 _ h
  · simp at h; subst h; exact hB

/-- `D` is achieved. -/
theorem D_achieved (n : Nat) : ∀ (a b : List F), a.length + b.length ≤ n →
    Alignable eq sw a.reverse b.reverse (D eq sw a b) := by
  induction n using Nat.strongRecOn with
  | _ n ih =>
  intro a b hn
  rcases a with _ | ⟨x, a⟩
  · rw [D_nil]
    clear ih hn
    induction b with
    | nil => exact ⟨[], by simp, rfl, rfl, rfl⟩
    | cons y b ihb =>
      have := alignable_snoc ihb (.ins y) trivial
      simpa [Block.src, Block.dst, Block.cost] using this
  rcases b with _ | ⟨y, b⟩
  · rw [D_nil']
    clear ih hn
    generalize x :: a = c
    induction c with
    | nil => exact ⟨[], by simp, rfl, rfl, rfl⟩
    | cons z c ihc =>
      have := alignable_snoc ihc (.del z) trivial
      simpa [Block.src, Block.dst, Block.cost] using this
  have i0 := ih (a.length + b.length) (by simp at hn; omega) a b (Nat.le_refl _)
  have i1 := ih (a.length + 1 + b.length) (by simp at hn; omega) (x :: a) b (by simp)
  have i2 := ih (a.length + (b.length + 1)) (by simp at hn; omega) a (y :: b) (by simp)
  by_cases h : eq x y = true
  · rw [D_eq eq sw a b h]
    simpa [Block.src, Block.dst, Block.cost] using alignable_snoc i0 (.keep x y) h
  · have h' : eq x y = false := by simpa using h
    rw [D_ne eq sw a b h']
    rcases swapCand_cases eq sw x y a b (min (min (D eq sw a b) (D eq sw (x :: a) b)) (D eq sw a (y :: b)) + 1) with h2 | ⟨x1, a', y1, b', rfl, rfl, hs, e1, e2, h2⟩
    · rw [h2]
      have m1 : min (min (D eq sw a b) (D eq sw (x :: a) b)) (D eq sw a (y :: b)) = D eq sw a b ∨
        min (min (D eq sw a b) (D eq sw (x :: a) b)) (D eq sw a (y :: b)) = D eq sw (x :: a) b ∨
        min (min (D eq sw a b) (D eq sw (x :: a) b)) (D eq sw a (y :: b)) = D eq sw a (y :: b) := by omega
      rcases m1 with m1 | m1 | m1 <;> rw [m1]
      · simpa [Block.src, Block.dst, Block.cost] using alignable_snoc i0 (.subst x y) trivial
      · simpa [Block.src, Block.dst, Block.cost] using alignable_snoc i1 (.ins y) trivial
      · simpa [Block.src, Block.dst, Block.cost] using alignable_snoc i2 (.del x) trivial
    · rw [h2]
      have i3 := ih (a'.length + b'.length) (by simp at hn; omega) a' b' (Nat.le_refl _)
      have := alignable_snoc i3 (.swap x1 x y1 y) ⟨hs, e1, e2⟩
      simpa [Block.src, Block.dst, Block.cost] using this

theorem D_isLeast (a b : List F) : IsLeast' (Alignable eq sw a b) (D eq sw a.reverse b.reverse) := by
  constructor
  · have := D_achieved eq sw _ a.reverse b.reverse (Nat.le_refl _)
    simpa using this
  · rintro k ⟨bs, h1, rfl, rfl, rfl⟩
    exact D_le_cost eq sw bs h1

end Satyr.Levenshtein
