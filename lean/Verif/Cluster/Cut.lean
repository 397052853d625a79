import Verif.Cluster.Spec
/-!
# Properties C11, C12: cutting a dendrogram
-/
namespace Satyr.Cluster

variable {α : Type} {le : α → α → Bool} {d : Dendrogram α} {level : α}

/-- Runs of a sequence of objects with gaps. -/
def runs (le : α → α → Bool) (level : α) : List Nat → List α → List (List Nat)
  | [], _ => []
  | [o], _ => [[o]]
  | o :: _, [] => [[o]]
  | o :: o' :: rest, g :: gs =>
    if le g level then
      match runs le level (o' :: rest) gs with
      | r :: rs => (o :: r) :: rs
      | [] => [[o]]
    else [o] :: runs le level (o' :: rest) gs

theorem runs_ne_nil {xs : List Nat} {gs : List α} (h : xs ≠ []) : runs le level xs gs ≠ [] := by
  match xs, gs with
  | [], _ => exact absurd rfl h
  | [o], _ => simp [runs]
  | o :: _ :: _, [] => simp [runs]
  | o :: o' :: rest, g :: gs =>
    unfold runs
    split
    · split <;> simp
    · simp

theorem runs_joined {xs : List Nat} {gs : List α} (h : xs ≠ []) (hl : gs.length + 1 = xs.length)
    (hj : ∀ g ∈ gs, le g level = true) : runs le level xs gs = [xs] := by
  induction xs generalizing gs with
  | nil => exact absurd rfl h
  | cons o xs ih =>
    match xs, gs with
    | [], _ => simp [runs]
    | o' :: rest, [] => simp at hl
    | o' :: rest, g :: gs =>
      unfold runs
      rw [if_pos (hj g (by simp)), ih (by simp) (by simpa using hl) (fun x hx => hj x (by simp [hx]))]

theorem runs_append {xs ys : List Nat} {gx gy : List α} {g : α} (hx : gx.length + 1 = xs.length) (hy : ys ≠ [])
    (hg : le g level = false) : runs le level (xs ++ ys) (gx ++ g :: gy) = runs le level xs gx ++ runs le level ys gy := by
  induction xs generalizing gx with
  | nil => simp at hx
  | cons o xs ih =>
    match xs, gx with
    | [], [] =>
      obtain ⟨y, ys, rfl⟩ := List.exists_cons_of_ne_nil hy
      simp [runs, hg]
    | [], _ :: _ => simp at hx
    | o' :: rest, [] => simp at hx
    | o' :: rest, g' :: gx =>
      have := ih (gx := gx) (by simpa using hx)
      simp only [List.cons_append] at this ⊢
      simp only [runs]
      rw [this]
      split
      · have hne := runs_ne_nil (le := le) (level := level) (xs := o' :: rest) (gs := gx) (by simp)
        match hr : runs le level (o' :: rest) gx with
        | [] => exact absurd hr hne
        | r :: rs => simp
      · simp

theorem runs_flatten {xs : List Nat} {gs : List α} (hl : gs.length + 1 = xs.length) :
    (runs le level xs gs).flatten = xs := by
  induction xs generalizing gs with
  | nil => simp [runs]
  | cons o xs ih =>
    match xs, gs with
    | [], _ => simp [runs]
    | o' :: rest, [] => simp at hl
    | o' :: rest, g :: gs =>
      have := ih (gs := gs) (by simpa using hl)
      unfold runs
      split
      · have hne := runs_ne_nil (le := le) (level := level) (xs := o' :: rest) (gs := gs) (by simp)
        match hr : runs le level (o' :: rest) gs with
        | [] => exact absurd hr hne
        | r :: rs => rw [hr] at this; simp [← this]
      · simp [this]

/-- Invariant of the loop of `sr_dendrogram_cut` after `k` iterations. -/
structure CutInv (le : α → α → Bool) (d : Dendrogram α) (level : α) (minSize : Int) (k : Nat)
    (s : Nat × List (List Nat)) : Prop where
  first : s.1 ≤ k
  joined : ∀ i, s.1 ≤ i → i < k → Joined le d level i
  left : s.1 = 0 ∨ ¬ Joined le d level (s.1 - 1)
  mem : ∀ x, x ∈ s.2 ↔ ∃ a b, b < k ∧ MaxRun le d level a b ∧ minSize ≤ (b : Int) - a + 1 ∧ x = slice d a b
  runs : s.2 = ((runs le level (d.order.take s.1) (d.levels.take (s.1 - 1))).filter
    fun r => decide (minSize ≤ (r.length : Int))).reverse

theorem joined_lt (w : d.WF) {i : Nat} (h : Joined le d level i) : i + 1 < d.order.length := by
  obtain ⟨l, h, -⟩ := h
  have := w.2
  obtain ⟨hlt, -⟩ := List.getElem?_eq_some_iff.1 h
  omega

theorem cutStep_inv (w : d.WF) {minSize : Int} {k : Nat} (hk : k < d.order.length) {s} (h : CutInv le d level minSize k s) :
    ∃ s', cutStep le d level minSize s k = .ok s' ∧ CutInv le d level minSize (k + 1) s' := by
  obtain ⟨first, acc⟩ := s
  have hfirst := h.first
  simp only at hfirst
  by_cases hj : Joined le d level k
  · have hlt := joined_lt w hj
    obtain ⟨l, hl, hle⟩ := hj
    refine ⟨(first, acc), ?_, ?_⟩
    · simp [cutStep, moreAt, hlt, hl, hle]
    · refine ⟨by have := h.first; simp only at *; omega, ?_, h.left, ?_, h.runs⟩
      · intro i h1 h2
        rcases Nat.lt_or_ge i k with h3 | h3
        · exact h.joined i h1 h3
        · have : i = k := by omega
          subst this; exact ⟨l, hl, hle⟩
      · intro x
        rw [h.mem]
        constructor
        · rintro ⟨a, b, h1, h2⟩; exact ⟨a, b, by omega, h2⟩
        · rintro ⟨a, b, h1, h2⟩
          refine ⟨a, b, ?_, h2⟩
          rcases Nat.lt_or_ge b k with h3 | h3
          · exact h3
          · have : b = k := by omega
            subst this; exact absurd ⟨l, hl, hle⟩ h2.1.right
  · have hmore : moreAt le d level k = Out.ok false := by
      unfold moreAt
      split
      · next hlt =>
        have : k < d.levels.length := by have := w.2; omega
        rw [List.getElem?_eq_getElem this]
        simp only
        congr 1
        by_contra hc
        exact hj ⟨_, List.getElem?_eq_getElem this, by simpa using hc⟩
      · rfl
    have hstep : cutStep le d level minSize (first, acc) k = .ok (k + 1,
        if minSize ≤ (k : Int) - first + 1 then slice d first k :: acc else acc) := by
      unfold cutStep
      rw [hmore]
      rfl
    have hrun : MaxRun le d level first k := ⟨hfirst, hk, h.joined, h.left, hj⟩
    have huniq : ∀ a, MaxRun le d level a k → a = first := by
      intro a ha
      rcases Nat.lt_trichotomy a first with h1 | h1 | h1
      · rcases h.left with h2 | h2
        · simp only at h2; omega
        · exact absurd (ha.joined (first - 1) (by omega) (by have := hrun.ordered; omega)) h2
      · exact h1
      · rcases ha.left with h2 | h2
        · omega
        · exact absurd (h.joined (a - 1) (by simp only; omega) (by have := ha.ordered; omega)) h2
    refine ⟨_, hstep, ⟨by simp, ?_, ?_, ?_, ?_⟩⟩
    · intro i h1 h2; simp only at h1; omega
    · right; simpa using hj
    · intro x
      simp only
      constructor
      · intro hx
        split at hx
        · next hmin =>
          rcases List.mem_cons.1 hx with rfl | hx
          · exact ⟨first, k, by omega, hrun, hmin, rfl⟩
          · obtain ⟨a, b, h1, h2⟩ := (h.mem x).1 hx
            exact ⟨a, b, by omega, h2⟩
        · obtain ⟨a, b, h1, h2⟩ := (h.mem x).1 hx
          exact ⟨a, b, by omega, h2⟩
      · rintro ⟨a, b, h1, h2, h3, rfl⟩
        rcases Nat.lt_or_ge b k with h4 | h4
        · have := (h.mem _).2 ⟨a, b, h4, h2, h3, rfl⟩
          simp only at this
          split
          · exact List.mem_cons_of_mem _ this
          · exact this
        · have : b = k := by omega
          subst this
          have := huniq a h2
          subst this
          rw [if_pos h3]; simp
    · simp only
      have hsl : (slice d first k).length = k + 1 - first := by
        unfold slice; simp; omega
      have hone : Cluster.runs le level (slice d first k) ((d.levels.drop first).take (k - first)) = [slice d first k] := by
        apply runs_joined
        · intro hc; rw [hc] at hsl; simp at hsl; omega
        · rw [hsl]
          have := w.2
          simp; omega
        · intro g hg
          obtain ⟨i, hi, hge⟩ := List.mem_iff_getElem.1 hg
          simp only [List.length_take, List.length_drop] at hi
          simp only [List.getElem_take, List.getElem_drop] at hge
          obtain ⟨l, h1, h2⟩ := h.joined (first + i) (by simp) (by omega)
          rw [List.getElem?_eq_getElem (by omega)] at h1
          simp only [Option.some.injEq] at h1
          rw [← hge, h1]; exact h2
      have htake : d.order.take (k + 1) = d.order.take first ++ slice d first k := by
        unfold slice
        rw [← List.take_add]
        congr 1; omega
      have hwhole : Cluster.runs le level (d.order.take (k + 1)) (d.levels.take k) =
          Cluster.runs le level (d.order.take first) (d.levels.take (first - 1)) ++ [slice d first k] := by
        rcases Nat.eq_zero_or_pos first with h0 | h0
        · subst h0
          rw [htake]
          simp only [List.take_zero, List.nil_append, Cluster.runs]
          simpa using hone
        · rw [htake, ← hone]
          have hl : first - 1 < d.levels.length := by have := w.2; omega
          have hsplit : d.levels.take k = d.levels.take (first - 1) ++ d.levels[first - 1] :: (d.levels.drop first).take (k - first) := by
            have e1 : d.levels.take k = d.levels.take (first - 1) ++ (d.levels.drop (first - 1)).take (k - (first - 1)) := by
              rw [← List.take_add]; congr 1; omega
            rw [e1, List.drop_eq_getElem_cons hl]
            have e2 : k - (first - 1) = (k - first) + 1 := by omega
            have e3 : first - 1 + 1 = first := by omega
            rw [e2, List.take_succ_cons, e3]
          rw [hsplit]
          apply runs_append
          · have := w.2
            simp; omega
          · intro hc; rw [hc] at hsl; simp at hsl; omega
          · rcases h.left with h2 | h2
            · simp only at h2; omega
            · simp only at h2
              by_contra hc
              exact h2 ⟨_, List.getElem?_eq_getElem hl, by simpa using hc⟩
      have e : k + 1 - 1 = k := by omega
      rw [e, hwhole, List.filter_append, List.reverse_append]
      have hr := h.runs
      simp only at hr
      rw [← hr]
      have hlen : (minSize ≤ ((slice d first k).length : Int)) ↔ minSize ≤ (k : Int) - first + 1 := by
        rw [hsl]; omega
      by_cases hmin : minSize ≤ (k : Int) - first + 1
      · rw [if_pos hmin, List.filter_cons_of_pos (by simpa using hlen.2 hmin)]; simp
      · rw [if_neg hmin, List.filter_cons_of_neg (by simpa using fun hc => hmin (hlen.1 hc))]; simp

theorem cut_inv (w : d.WF) (le : α → α → Bool) (level : α) (minSize : Int) (k : Nat) (hk : k ≤ d.order.length) :
    ∃ s, (List.range k).foldlM (cutStep le d level minSize) (0, []) = .ok s ∧ CutInv le d level minSize k s := by
  induction k with
  | zero =>
    refine ⟨(0, []), rfl, ⟨by simp, by intro i _ h; omega, Or.inl rfl, ?_, ?_⟩⟩
    · intro x; simp
    · simp [runs]
  | succ k ih =>
    obtain ⟨s, e, h⟩ := ih (by omega)
    obtain ⟨s', e', h'⟩ := cutStep_inv w (by omega) h
    refine ⟨s', ?_, h'⟩
    rw [List.range_succ, List.foldlM_append, e]
    simp [e']

theorem cut_eq_runs (w : d.WF) (level : α) (minSize : Int) :
    cut le d level minSize =
      .ok ((runs le level d.order d.levels).filter fun r => decide (minSize ≤ (r.length : Int))).reverse := by
  obtain ⟨s, e, h⟩ := cut_inv w le level minSize d.order.length (Nat.le_refl _)
  have hs : s.1 = d.order.length := by
    rcases Nat.lt_or_ge s.1 d.order.length with h1 | h1
    · have hn : d.order.length ≠ 0 := by have := w.1; simpa using this
      have := joined_lt w (h.joined (d.order.length - 1) (by omega) (by omega))
      omega
    · have := h.first; omega
  have hr := h.runs
  have hlv : d.order.length - 1 = d.levels.length := by have := w.2; omega
  rw [hs, List.take_length, hlv, List.take_length] at hr
  unfold cut
  rw [e, ← hr]
  rfl

/-- **C11.** `sr_dendrogram_cut` succeeds and returns exactly the maximal runs joined at `level` that have at least
`minSize` members, no object is returned more often than it is in the dendrogram, and for `minSize ≤ 1` the
clusters (in reverse order) put together are the dendrogram's sequence of objects. -/
theorem C11_cut (w : d.WF) (level : α) (minSize : Int) :
    ∃ cs, cut le d level minSize = .ok cs ∧
      (∀ x, x ∈ cs ↔ ∃ a b, MaxRun le d level a b ∧ minSize ≤ (b : Int) - a + 1 ∧ x = slice d a b) ∧
      cs.reverse.flatten.Sublist d.order ∧
      (minSize ≤ 1 → cs.reverse.flatten = d.order) := by
  refine ⟨_, cut_eq_runs w level minSize, ?_, ?_, ?_⟩
  · intro x
    obtain ⟨s, e, h⟩ := cut_inv w le level minSize d.order.length (Nat.le_refl _)
    have : cut le d level minSize = .ok s.2 := by unfold cut; rw [e]; rfl
    rw [cut_eq_runs w] at this
    injection this with this
    rw [this, h.mem]
    constructor
    · rintro ⟨a, b, -, h⟩; exact ⟨a, b, h⟩
    · rintro ⟨a, b, h⟩; exact ⟨a, b, h.1.inside, h⟩
  · rw [List.reverse_reverse]
    have := runs_flatten (le := le) (level := level) (xs := d.order) (gs := d.levels) w.2
    conv => rhs; rw [← this]
    generalize runs le level d.order d.levels = l
    induction l with
    | nil => simp
    | cons r l ih =>
      rw [List.filter_cons]
      split
      · simpa using ih
      · simpa using ih.trans (List.sublist_append_right r _)
  · intro hmin
    rw [List.reverse_reverse, List.filter_eq_self.2]
    · exact runs_flatten w.2
    · intro r hr
      have hne : r ≠ [] := by
        have key : ∀ (xs : List Nat) (gs : List α), ∀ r ∈ runs le level xs gs, r ≠ [] := by
          intro xs
          induction xs with
          | nil => intro gs r hr; simp [runs] at hr
          | cons o xs ih =>
            intro gs r hr
            match xs, gs with
            | [], _ => simp [runs] at hr; simp [hr]
            | o' :: rest, [] => simp [runs] at hr; simp [hr]
            | o' :: rest, g :: gs =>
              unfold runs at hr
              split at hr
              · split at hr
                · next r0 rs e =>
                  rcases List.mem_cons.1 hr with rfl | hr
                  · simp
                  · exact ih gs r (by rw [e]; simp [hr])
                · simp at hr; simp [hr]
              · rcases List.mem_cons.1 hr with rfl | hr
                · simp
                · exact ih gs r hr
        exact key _ _ r hr
      have : 0 < r.length := List.length_pos_iff.2 hne
      simp; omega

/-- Every position lies in a maximal run. -/
theorem exists_maxRun (w : d.WF) (le : α → α → Bool) (level : α) {a b : Nat} (hab : a ≤ b) (hb : b < d.order.length)
    (hj : ∀ i, a ≤ i → i < b → Joined le d level i) :
    ∃ a' b', MaxRun le d level a' b' ∧ a' ≤ a ∧ b ≤ b' := by
  classical
  -- right end
  have hr : ∃ b', b ≤ b' ∧ b' < d.order.length ∧ (∀ i, a ≤ i → i < b' → Joined le d level i) ∧ ¬ Joined le d level b' := by
    have key : ∀ k b, a ≤ b → b + k + 1 = d.order.length → (∀ i, a ≤ i → i < b → Joined le d level i) →
        ∃ b', b ≤ b' ∧ b' < d.order.length ∧ (∀ i, a ≤ i → i < b' → Joined le d level i) ∧ ¬ Joined le d level b' := by
      intro k
      induction k with
      | zero =>
        intro b h1 h2 h3
        exact ⟨b, Nat.le_refl _, by omega, h3, fun hc => by have := joined_lt w hc; omega⟩
      | succ k ih =>
        intro b h1 h2 h3
        by_cases hc : Joined le d level b
        · obtain ⟨b', h4, h5⟩ := ih (b + 1) (by omega) (by omega) (by
            intro i hi1 hi2
            rcases Nat.lt_or_ge i b with h | h
            · exact h3 i hi1 h
            · have : i = b := by omega
              subst this; exact hc)
          exact ⟨b', by omega, h5⟩
        · exact ⟨b, Nat.le_refl _, by omega, h3, hc⟩
    exact key (d.order.length - 1 - b) b hab (by omega) hj
  obtain ⟨b', h1, h2, h3, h4⟩ := hr
  have hl : ∀ a, a ≤ b' → (∀ i, a ≤ i → i < b' → Joined le d level i) →
      ∃ a', a' ≤ a ∧ (∀ i, a' ≤ i → i < b' → Joined le d level i) ∧ (a' = 0 ∨ ¬ Joined le d level (a' - 1)) := by
    intro a
    induction a with
    | zero => intro _ h; exact ⟨0, Nat.le_refl _, h, Or.inl rfl⟩
    | succ a ih =>
      intro hle h
      by_cases hc : Joined le d level a
      · obtain ⟨a', h5, h6⟩ := ih (by omega) (by
          intro i hi1 hi2
          rcases Nat.lt_or_ge a i with hlt | hge
          · exact h i hlt hi2
          · have : i = a := by omega
            subst this; exact hc)
        exact ⟨a', by omega, h6⟩
      · exact ⟨a + 1, Nat.le_refl _, h, Or.inr (by simpa using hc)⟩
  obtain ⟨a', h5, h6, h7⟩ := hl a (by omega) h3
  exact ⟨a', b', ⟨by omega, h2, h6, h7, h4⟩, h5, h1⟩

/-- **C12.** Cutting at a lower level refines: every cluster of the lower cut is a contiguous part of a cluster of
the higher cut. `hl` says that `l1` is not above `l2`. -/
theorem C12_refines (w : d.WF) {l1 l2 : α} (hl : ∀ x, le x l1 = true → le x l2 = true) (min1 min2 : Int) (h2 : min2 ≤ 1)
    {c1 c2 : List (List Nat)} (e1 : cut le d l1 min1 = .ok c1) (e2 : cut le d l2 min2 = .ok c2) :
    ∀ x ∈ c1, ∃ y ∈ c2, x <:+: y := by
  obtain ⟨cs1, f1, m1, -⟩ := C11_cut (le := le) w l1 min1
  obtain ⟨cs2, f2, m2, -⟩ := C11_cut (le := le) w l2 min2
  rw [e1] at f1; injection f1 with f1; subst f1
  rw [e2] at f2; injection f2 with f2; subst f2
  intro x hx
  obtain ⟨a, b, hr, -, rfl⟩ := (m1 x).1 hx
  obtain ⟨a', b', hr', ha, hb⟩ := exists_maxRun w le l2 hr.ordered hr.inside (fun i h1 h2 => by
    obtain ⟨l, hl1, hl2⟩ := hr.joined i h1 h2
    exact ⟨l, hl1, hl l hl2⟩)
  refine ⟨slice d a' b', (m2 _).2 ⟨a', b', hr', by have := hr'.ordered; omega, rfl⟩, ?_⟩
  have hab := hr.ordered
  refine ⟨(d.order.drop a').take (a - a'), (d.order.drop (b + 1)).take (b' - b), ?_⟩
  unfold slice
  have s1 : (d.order.drop a').take (a - a') ++ (d.order.drop a).take (b + 1 - a) = (d.order.drop a').take (b + 1 - a') := by
    have e : d.order.drop a = (d.order.drop a').drop (a - a') := by rw [List.drop_drop]; congr 1; omega
    rw [e, ← List.take_add]; congr 1; omega
  rw [s1]
  have e : d.order.drop (b + 1) = (d.order.drop a').drop (b + 1 - a') := by rw [List.drop_drop]; congr 1; omega
  rw [e, ← List.take_add]; congr 1; omega

/-- Non-vacuity: five objects, cut at two levels. -/
example : let d : Dendrogram Nat := ⟨[3, 0, 4, 1, 2], [1, 5, 2, 7]⟩
    d.WF ∧ cut (fun a b => decide (a ≤ b)) d 2 1 = .ok [[2], [4, 1], [3, 0]] ∧
    cut (fun a b => decide (a ≤ b)) d 5 2 = .ok [[3, 0, 4, 1]] := by decide

end Satyr.Cluster
