/-!
# The first element with a property
-/
namespace Satyr

/-- The first element with a property. -/
def FirstWith {α : Type} (p : α → Prop) (l : List α) (x : α) : Prop :=
  ∃ before after, l = before ++ x :: after ∧ p x ∧ ∀ y ∈ before, ¬ p y

theorem firstWith_loop {α : Type} (p : α → Prop) [DecidablePred p] (f : List α → Option α) (h0 : f [] = none)
    (h1 : ∀ x l, f (x :: l) = if p x then some x else f l) (l : List α) :
    (∀ x, f l = some x ↔ FirstWith p l x) ∧ (f l = none ↔ ∀ x ∈ l, ¬ p x) := by
  induction l with
  | nil => exact ⟨fun x => by simp [h0, FirstWith], by simp [h0]⟩
  | cons y l ih =>
    rw [h1]
    by_cases hp : p y
    · rw [if_pos hp]
      refine ⟨fun x => ⟨?_, ?_⟩, by simp [hp]⟩
      · intro h; cases h; exact ⟨[], l, rfl, hp, by simp⟩
      · rintro ⟨b, a, e, hx, hb⟩
        cases b with
        | nil => cases e; rfl
        | cons z b => cases e; exact absurd hp (hb _ (by simp))
    · rw [if_neg hp]
      refine ⟨fun x => ⟨?_, ?_⟩, ?_⟩
      · intro h
        obtain ⟨b, a, e, hx, hb⟩ := (ih.1 x).1 h
        refine ⟨y :: b, a, by rw [e]; rfl, hx, fun z hz => ?_⟩
        rcases List.mem_cons.1 hz with rfl | hz
        · exact hp
        · exact hb z hz
      · rintro ⟨b, a, e, hx, hb⟩
        cases b with
        | nil => cases e; exact absurd hx hp
        | cons z b => cases e; exact (ih.1 x).2 ⟨b, a, rfl, hx, fun w hw => hb w (by simp [hw])⟩
      · rw [ih.2]; simp [hp]

theorem firstWith_congr {α : Type} {p q : α → Prop} {l : List α} (h : ∀ x ∈ l, p x ↔ q x) {x : α} :
    FirstWith p l x ↔ FirstWith q l x := by
  constructor <;> rintro ⟨b, a, rfl, h1, h2⟩
  · exact ⟨b, a, rfl, (h x (by simp)).1 h1, fun y hy hq => h2 y hy ((h y (by simp [hy])).2 hq)⟩
  · exact ⟨b, a, rfl, (h x (by simp)).2 h1, fun y hy hq => h2 y hy ((h y (by simp [hy])).1 hq)⟩

end Satyr
