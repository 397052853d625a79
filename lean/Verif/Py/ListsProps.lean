import Verif.Py.Lists
import Mathlib.Data.List.Nodup
import Mathlib.Tactic.Tauto
/-!
# Properties of the lists of frames and threads of Python objects
-/
namespace Satyr.Py

/-! ## Specification -/

/-- The linked list that starts at `p` has exactly the structures `l`. -/
def Linked (next : CPtr → CPtr) : CPtr → List CPtr → Prop
  | p, [] => p = 0
  | p, x :: l => p = x ∧ x ≠ 0 ∧ Linked next (next x) l

/-! ## Lemmas -/

theorem update_eq {β : Type} (f : Nat → β) (x : Nat) (v : β) : update f x v x = v := if_pos rfl
theorem update_ne {β : Type} (f : Nat → β) {x y : Nat} (v : β) (h : y ≠ x) : update f x v y = f y := if_neg h

theorem Linked.congr {next next' : CPtr → CPtr} : ∀ {l : List CPtr} {p : CPtr}, Linked next p l → (∀ x ∈ l, next' x = next x) →
    Linked next' p l
  | [], _, h, _ => h
  | x :: l, _, ⟨h1, h2, h3⟩, h => ⟨h1, h2, by rw [h x (by simp)]; exact h3.congr fun y hy => h y (by simp [hy])⟩

theorem linkFrame_refs (t : CPtr) (prev : Option Object) (x : Object) (s : State) : (linkFrame t prev x s).refs = s.refs := by
  cases prev <;> rfl

theorem refs_step (x : Object) (prev : Option Object) (s s' : State) (h : s'.refs = update s.refs x (s.refs x + 1)) :
    ((s'.addRefOpt prev (-1)).addRef x (-1)).refs = (s.addRefOpt prev (-1)).refs := by
  funext y
  cases prev with
  | none =>
    simp only [State.addRefOpt, State.addRef, h, update]
    split_ifs <;> subst_vars <;> omega
  | some p =>
    simp only [State.addRefOpt, State.addRef, h, update]
    split_ifs <;> subst_vars <;> omega

/-- The reference counts after the loop: the reference to the previous object is given up. -/
theorem framesLoop_refs (ok : Object → Bool) (t : CPtr) : ∀ (l : List Object) (prev : Option Object) (s : State),
    (framesLoop ok t l prev s).2.refs = (s.addRefOpt prev (-1)).refs
  | [], prev, s => by cases prev <;> rfl
  | x :: l, prev, s => by
    rw [framesLoop]
    split
    · funext y
      cases prev with
      | none =>
        simp only [State.addRefOpt, State.addRef, update]
        split_ifs <;> subst_vars <;> omega
      | some p =>
        simp only [State.addRefOpt, State.addRef, update]
        split_ifs <;> subst_vars <;> omega
    · rw [framesLoop_refs ok t l]
      exact refs_step x prev s _ (linkFrame_refs _ _ _ _)

theorem addRefOpt_cOf (s : State) (x : Option Object) (n : Int) : (s.addRefOpt x n).cOf = s.cOf := by cases x <;> rfl
theorem addRefOpt_next (s : State) (x : Option Object) (n : Int) : (s.addRefOpt x n).next = s.next := by cases x <;> rfl
theorem addRefOpt_frames (s : State) (x : Option Object) (n : Int) : (s.addRefOpt x n).frames = s.frames := by cases x <;> rfl
theorem addRefOpt_threads (s : State) (x : Option Object) (n : Int) : (s.addRefOpt x n).threads = s.threads := by cases x <;> rfl

/-- What the loop does when all objects are frames, after the first one. -/
theorem framesLoop_some (ok : Object → Bool) (t : CPtr) : ∀ (l : List Object) (p : Object) (s : State), (∀ x ∈ l, ok x = true) →
    ((p :: l).map s.cOf).Nodup → (∀ x ∈ l, s.cOf x ≠ 0) →
    ∃ s', framesLoop ok t l (some p) s = (true, s') ∧ s'.cOf = s.cOf ∧ s'.threads = s.threads ∧ s'.frames = s.frames ∧
      Linked s'.next (s'.next (s.cOf p)) (l.map s.cOf) ∧ ∀ x, x ∉ (p :: l).map s.cOf → s'.next x = s.next x
  | [], p, s, _, _, _ => by
    refine ⟨_, rfl, rfl, rfl, rfl, ?_, fun x hx => ?_⟩
    · exact update_eq _ _ _
    · exact update_ne _ _ (by simpa using hx)
  | x :: l, p, s, hok, hd, hz => by
    rw [framesLoop]
    rw [if_neg (by simp [hok x (by simp)])]
    obtain ⟨s', e1, e2, e3, e4, e5, e6⟩ := framesLoop_some ok t l x
      ((((s.addRef x 1).setNext ((s.addRef x 1).cOf p) ((s.addRef x 1).cOf x))).addRefOpt (some p) (-1))
      (fun y hy => hok y (by simp [hy])) (List.nodup_cons.1 (by simpa [State.addRefOpt, State.addRef, State.setNext] using hd)).2
      (fun y hy => hz y (by simp [hy]))
    have hp : s.cOf p ∉ (x :: l).map s.cOf := (List.nodup_cons.1 (by simpa using hd)).1
    refine ⟨s', e1, e2, e3, e4, ?_, fun y hy => ?_⟩
    · refine ⟨?_, hz x (by simp), e5⟩
      rw [e6 _ hp]
      exact update_eq _ _ _
    · rw [e6 y (fun h => hy (by
        have h' : y ∈ (x :: l).map s.cOf := h
        rw [List.map_cons]; exact List.mem_cons_of_mem _ h'))]
      exact update_ne _ _ (fun e : y = s.cOf p => hy (by simp [e]))

theorem prepareFrames_spec (ok : Object → Bool) (t : CPtr) (x : Object) (l : List Object) (s : State)
    (hok : ∀ y ∈ x :: l, ok y = true) (hd : ((x :: l).map s.cOf).Nodup) (hz : ∀ y ∈ x :: l, s.cOf y ≠ 0) :
    ∃ s', prepareFrames ok t (x :: l) s = (true, s') ∧ s'.cOf = s.cOf ∧ s'.threads = s.threads ∧ s'.refs = s.refs ∧
      Linked s'.next (s'.frames t) ((x :: l).map s.cOf) ∧ (∀ y, y ∉ (x :: l).map s.cOf → s'.next y = s.next y) ∧
      ∀ u, u ≠ t → s'.frames u = s.frames u := by
  have hr := framesLoop_refs ok t (x :: l) none s
  unfold prepareFrames
  rw [framesLoop] at hr ⊢
  rw [if_neg (by simp [hok x (by simp)])] at hr ⊢
  obtain ⟨s', e1, e2, e3, e4, e5, e6⟩ := framesLoop_some ok t l x
    (((s.addRef x 1).setFrames t ((s.addRef x 1).cOf x)).addRefOpt none (-1))
    (fun y hy => hok y (by simp [hy])) hd (fun y hy => hz y (by simp [hy]))
  have e1' : framesLoop ok t l (some x) ((linkFrame t none x (s.addRef x 1)).addRefOpt none (-1)) = (true, s') := e1
  rw [e1'] at hr
  refine ⟨s', e1, e2, e3, hr, ⟨?_, hz x (by simp), e5⟩, e6, fun u hu => ?_⟩
  · rw [e4]; exact update_eq _ _ _
  · rw [e4]; exact update_ne _ _ hu

/-! ## C104: the frames of a thread -/

/-- **C104.** Before a thread is passed to the library, its C structure gets exactly the frames of its Python list, in the same
order, if the list is not empty and has each frame once. No other frames or threads are changed, and all reference counts are as
before. -/
theorem C104_frames_partial (ok : Object → Bool) (thread : CPtr) (items : List Object) (s : State) (hne : items ≠ [])
    (hok : ∀ x ∈ items, ok x = true) (hd : (items.map s.cOf).Nodup) (hz : ∀ x ∈ items, s.cOf x ≠ 0) :
    ∃ s', prepareFrames ok thread items s = (true, s') ∧ Linked s'.next (s'.frames thread) (items.map s.cOf) ∧
      s'.refs = s.refs ∧ (∀ p, p ∉ items.map s.cOf → s'.next p = s.next p) ∧ ∀ t, t ≠ thread → s'.frames t = s.frames t := by
  cases items with
  | nil => exact absurd rfl hne
  | cons x l =>
    obtain ⟨s', e1, _, _, e4, e5, e6, e7⟩ := prepareFrames_spec ok thread x l s hok hd hz
    exact ⟨s', e1, e5, e4, e6, e7⟩

/-- An object of a wrong type in the list is refused; whatever is in the list, all reference counts are as before. -/
theorem C104_refs (ok : Object → Bool) (thread : CPtr) (items : List Object) (s : State) :
    (prepareFrames ok thread items s).2.refs = s.refs ∧
    ((prepareFrames ok thread items s).1 = true ↔ ∀ x ∈ items, ok x = true) := by
  refine ⟨framesLoop_refs ok thread items none s, ?_⟩
  unfold prepareFrames
  generalize none = prev
  induction items generalizing prev s with
  | nil => simp [framesLoop]
  | cons x l ih =>
    rw [framesLoop]
    by_cases h : ok x = false
    · rw [if_pos h]; simp [h]
    · rw [if_neg h, ih]
      simp at h
      simp [h]

/-- Two threads without a common frame: both have the frames of their lists, after both were prepared. -/
theorem C104_two_threads_partial (ok : Object → Bool) (t₁ t₂ : CPtr) (l₁ l₂ : List Object) (s : State) (ht : t₁ ≠ t₂) (h₁ : l₁ ≠ []) (h₂ : l₂ ≠ [])
    (hok : ∀ x ∈ l₁ ++ l₂, ok x = true) (hd : ((l₁ ++ l₂).map s.cOf).Nodup) (hz : ∀ x ∈ l₁ ++ l₂, s.cOf x ≠ 0) :
    ∃ s' s'', prepareFrames ok t₁ l₁ s = (true, s') ∧ prepareFrames ok t₂ l₂ s' = (true, s'') ∧
      Linked s''.next (s''.frames t₁) (l₁.map s.cOf) ∧ Linked s''.next (s''.frames t₂) (l₂.map s.cOf) := by
  rw [List.map_append] at hd
  obtain ⟨d1, d2, d3⟩ := List.nodup_append.1 hd
  cases l₁ with
  | nil => exact absurd rfl h₁
  | cons x l₁ =>
    cases l₂ with
    | nil => exact absurd rfl h₂
    | cons y l₂ =>
      obtain ⟨s', e1, e2, _, _, e5, e6, e7⟩ := prepareFrames_spec ok t₁ x l₁ s (fun z hz => hok z (by simp at hz ⊢; tauto)) d1
        (fun z h => hz z (by simp at h ⊢; tauto))
      obtain ⟨s'', f1, _, _, _, f5, f6, f7⟩ := prepareFrames_spec ok t₂ y l₂ s' (fun z hz => hok z (by simp at hz ⊢; tauto))
        (by rw [e2]; exact d2) (fun z h => by rw [e2]; exact hz z (by simp at h ⊢; tauto))
      rw [e2] at f5 f6
      refine ⟨s', s'', e1, f1, ?_, f5⟩
      rw [f7 t₁ ht]
      exact e5.congr fun z hz => f6 z fun hz' => d3 z hz z hz' rfl

/-- A state: the C structure of object `x` is at `x`; nothing is linked. -/
def blank : State := { refs := fun _ => 1, cOf := id, next := fun _ => 0, frames := fun _ => 0, threads := fun _ => 0 }

example : (∀ x ∈ [1, 2, 3], (fun _ => true) x = true) ∧ ([1, 2, 3].map blank.cOf).Nodup ∧ ∀ x ∈ [1, 2, 3], blank.cOf x ≠ 0 := by decide

/-- What is missing in C104: with a frame that occurs twice, the frames between are lost: the library sees one frame instead of
three. -/
theorem C104_not_repeated : ∃ s', prepareFrames (fun _ => true) 10 [1, 2, 1] blank = (true, s') ∧ Linked s'.next (s'.frames 10) [1] :=
  ⟨_, rfl, rfl, by decide, rfl⟩

/-- What is missing in C104: if the Python list is empty, the C structure keeps its frames. -/
theorem C104_not_empty : ∃ s s' s'', prepareFrames (fun _ => true) 10 [1] s = (true, s') ∧
    prepareFrames (fun _ => true) 10 [] s' = (true, s'') ∧ Linked s''.next (s''.frames 10) [1] :=
  ⟨blank, _, _, rfl, rfl, rfl, by decide, rfl⟩

/-- What is missing in C104: a frame that is in the lists of two threads gets the rest of the second list in both. -/
theorem C104_not_shared : ∃ s' s'', prepareFrames (fun _ => true) 10 [1, 2] blank = (true, s') ∧
    prepareFrames (fun _ => true) 11 [1, 3] s' = (true, s'') ∧ Linked s''.next (s''.frames 10) [1, 3] :=
  ⟨_, _, rfl, rfl, rfl, by decide, rfl, by decide, rfl⟩

/-! ## C105: the threads of a stack trace -/

theorem threadsLoop_spec (okThread okFrame : Object → Bool) (framesOf : Object → List Object) (trace : CPtr) :
    ∀ (l : List Object) (prev : Option Object) (s : State), (∀ x ∈ l, okThread x = true) → (∀ x ∈ l, ∀ y ∈ framesOf x, okFrame y = true) →
    (∀ x ∈ l, framesOf x ≠ []) → (∀ x ∈ l ++ l.flatMap framesOf, s.cOf x ≠ 0) →
    ((prev.toList ++ (l ++ l.flatMap framesOf)).map s.cOf).Nodup →
    ∃ s', threadsLoop okThread okFrame framesOf trace l prev s = (true, s') ∧ s'.cOf = s.cOf ∧
      s'.refs = (s.addRefOpt prev (-1)).refs ∧
      (∀ p, p ∉ (prev.toList ++ (l ++ l.flatMap framesOf)).map s.cOf → s'.next p = s.next p) ∧
      (∀ t, t ∉ l.map s.cOf → s'.frames t = s.frames t) ∧ (∀ t, t ≠ trace → s'.threads t = s.threads t) ∧
      (∀ x ∈ l, Linked s'.next (s'.frames (s.cOf x)) ((framesOf x).map s.cOf)) ∧
      (∀ p, prev = some p → s'.threads = s.threads ∧ Linked s'.next (s'.next (s.cOf p)) (l.map s.cOf)) ∧
      (prev = none → l ≠ [] → Linked s'.next (s'.threads trace) (l.map s.cOf))
  | [], prev, s, _, _, _, _, _ => by
    refine ⟨_, rfl, by cases prev <;> rfl, by cases prev <;> rfl, fun p hp => ?_, fun t _ => by cases prev <;> rfl,
      fun t _ => by cases prev <;> rfl, by simp, fun p hp => ?_, fun _ h => absurd rfl h⟩
    · cases prev with
      | none => rfl
      | some q => exact update_ne _ _ (by simpa using hp)
    · subst hp
      exact ⟨rfl, update_eq _ _ _⟩
  | x :: l, prev, s, h1, h2, h3, h4, h5 => by
    rw [threadsLoop]
    rw [if_neg (by simp [h1 x (by simp)])]
    have h5' : (prev.toList.map s.cOf ++ (s.cOf x :: (l.map s.cOf ++ ((framesOf x).map s.cOf ++ (l.flatMap framesOf).map s.cOf)))).Nodup := by
      simpa [List.map_append, List.append_assoc] using h5
    obtain ⟨dp, dx, dpx⟩ := List.nodup_append.1 h5'
    obtain ⟨nx, dx⟩ := List.nodup_cons.1 dx
    obtain ⟨dl, df, dlf⟩ := List.nodup_append.1 dx
    obtain ⟨dfx, dfl, dfxl⟩ := List.nodup_append.1 df
    simp only [List.mem_append, not_or] at nx
    -- the frames of `x`
    have hfr : ∃ s', prepareFrames okFrame (s.cOf x) (framesOf x) (s.addRef x 1) = (true, s') ∧ s'.cOf = s.cOf ∧ s'.threads = s.threads ∧
        s'.refs = (s.addRef x 1).refs ∧ Linked s'.next (s'.frames (s.cOf x)) ((framesOf x).map s.cOf) ∧
        (∀ y, y ∉ (framesOf x).map s.cOf → s'.next y = s.next y) ∧ ∀ u, u ≠ s.cOf x → s'.frames u = s.frames u := by
      cases hf : framesOf x with
      | nil => exact absurd hf (h3 x (by simp))
      | cons y ys =>
        obtain ⟨s', e1, e2, e3, e4, e5, e6, e7⟩ := prepareFrames_spec okFrame (s.cOf x) y ys (s.addRef x 1)
          (fun z hz => h2 x (by simp) z (by rw [hf]; exact hz)) (by rw [hf] at dfx; exact dfx)
          (fun z hz => h4 z (by rw [List.flatMap_cons, hf]; simp only [List.mem_append, List.mem_cons] at hz ⊢; tauto))
        exact ⟨s', e1, e2, e3, e4, e5, e6, e7⟩
    obtain ⟨s1, e1, e2, e3, e4, e5, e6, e7⟩ := hfr
    have e1' : prepareFrames okFrame ((s.addRef x 1).cOf x) (framesOf x) (s.addRef x 1) = (true, s1) := e1
    rw [e1']
    dsimp only
    -- the link to `x`
    generalize hs2 : linkThread trace prev x s1 = s2
    have c2 : s2.cOf = s.cOf := by rw [← hs2, ← e2]; cases prev <;> rfl
    have f2 : s2.frames = s1.frames := by rw [← hs2]; cases prev <;> rfl
    have r2 : s2.refs = (s.addRef x 1).refs := by rw [← hs2, ← e4]; cases prev <;> rfl
    have n2 : ∀ y, y ∉ prev.toList.map s.cOf → s2.next y = s1.next y := by
      intro y hy
      rw [← hs2]
      cases prev with
      | none => rfl
      | some p => exact update_ne _ _ (by rw [e2]; simpa using hy)
    obtain ⟨s', g1, g2, g3, g4, g5, g6, g7, g8, -⟩ := threadsLoop_spec okThread okFrame framesOf trace l (some x) (s2.addRefOpt prev (-1))
      (fun y hy => h1 y (by simp [hy])) (fun y hy => h2 y (by simp [hy])) (fun y hy => h3 y (by simp [hy]))
      (fun y hy => by
        rw [addRefOpt_cOf, c2]
        refine h4 y ?_
        rw [List.flatMap_cons]
        simp only [List.mem_append, List.mem_cons] at hy ⊢
        tauto)
      (by
        rw [addRefOpt_cOf, c2]
        simp only [Option.toList_some, List.cons_append, List.nil_append, List.map_cons, List.map_append]
        refine List.nodup_cons.2 ⟨by simp only [List.mem_append, not_or]; exact ⟨nx.1, nx.2.2⟩, List.nodup_append.2 ⟨dl, dfl, ?_⟩⟩
        exact fun a ha b hb => dlf a ha b (by simp [hb]))
    rw [addRefOpt_cOf, c2] at g2 g4 g5 g7 g8
    rw [addRefOpt_next] at g4
    rw [addRefOpt_frames] at g5
    rw [addRefOpt_threads] at g6 g8
    -- the rest does not change the frames of `x`, nor the link to it
    have keep : ∀ y, y ∈ (framesOf x).map s.cOf → s'.next y = s2.next y := fun y hy => by
      refine g4 y ?_
      simp only [Option.toList_some, List.cons_append, List.nil_append, List.map_cons, List.map_append, List.mem_cons, List.mem_append,
        not_or]
      exact ⟨fun e => nx.2.1 (e ▸ hy), fun h => dlf y h y (by simp [hy]) rfl, fun h => dfxl y hy y h rfl⟩
    have keep' : ∀ y, y ∈ prev.toList.map s.cOf → s'.next y = s2.next y := fun y hy => by
      refine g4 y ?_
      simp only [Option.toList_some, List.cons_append, List.nil_append, List.map_cons, List.map_append, List.mem_cons, List.mem_append,
        not_or]
      exact ⟨fun e => dpx y hy (s.cOf x) (by simp) e, fun h => dpx y hy y (by simp [h]) rfl, fun h => dpx y hy y (by simp [h]) rfl⟩
    refine ⟨s', g1, g2, ?_, fun p hp => ?_, fun t ht => ?_, fun t ht => ?_, fun y hy => ?_, fun p hp => ?_, fun hp _ => ?_⟩
    · rw [g3]
      exact refs_step x prev s s2 r2
    · simp only [List.flatMap_cons, List.map_append, List.map_cons, List.mem_append, List.mem_cons, not_or] at hp
      obtain ⟨q1, ⟨q2, q3⟩, q4, q5⟩ := hp
      rw [g4 p (by
        simp only [Option.toList_some, List.cons_append, List.nil_append, List.map_cons, List.map_append, List.mem_cons, List.mem_append,
          not_or]
        exact ⟨q2, q3, q5⟩), n2 p q1, e6 p q4]
    · rw [List.map_cons, List.mem_cons, not_or] at ht
      rw [g5 t ht.2, f2, e7 t ht.1]
    · rw [g6 t ht, ← hs2, ← e3]
      cases prev with
      | none => exact update_ne _ _ ht
      | some p => rfl
    · rcases List.mem_cons.1 hy with rfl | hy
      · rw [g5 _ nx.1, f2]
        refine e5.congr fun z hz => ?_
        rw [keep z hz, n2 z fun h => dpx z h z (by simp [hz]) rfl]
      · exact g7 y hy
    · subst hp
      obtain ⟨k1, k2⟩ := g8 x rfl
      refine ⟨by rw [k1, ← hs2, ← e3]; rfl, ?_, h4 x (by simp), k2⟩
      rw [keep' _ (by simp), ← hs2, ← e2]
      exact update_eq _ _ _
    · subst hp
      obtain ⟨k1, k2⟩ := g8 x rfl
      refine ⟨?_, h4 x (by simp), k2⟩
      rw [k1, ← hs2, ← e2]
      exact update_eq _ _ _

/-- **C105.** Before a stack trace with threads is passed to the library, its C structure gets exactly the threads of the Python
list, in the same order, and each of them exactly the frames of its list, if there is at least one thread, each has at least one
frame, and no object occurs twice. All reference counts are as before. -/
theorem C105_threads_partial (okThread okFrame : Object → Bool) (framesOf : Object → List Object) (trace : CPtr) (items : List Object)
    (s : State) (hne : items ≠ []) (ht : ∀ x ∈ items, okThread x = true) (hf : ∀ x ∈ items, ∀ y ∈ framesOf x, okFrame y = true)
    (hfe : ∀ x ∈ items, framesOf x ≠ []) (hz : ∀ x ∈ items ++ items.flatMap framesOf, s.cOf x ≠ 0)
    (hd : ((items ++ items.flatMap framesOf).map s.cOf).Nodup) :
    ∃ s', prepareThreads okThread okFrame framesOf trace items s = (true, s') ∧
      Linked s'.next (s'.threads trace) (items.map s.cOf) ∧
      (∀ x ∈ items, Linked s'.next (s'.frames (s.cOf x)) ((framesOf x).map s.cOf)) ∧ s'.refs = s.refs := by
  obtain ⟨s', e1, _, e3, _, _, _, e7, _, e9⟩ := threadsLoop_spec okThread okFrame framesOf trace items none s ht hf hfe hz hd
  exact ⟨s', e1, e9 rfl hne, e7, e3⟩

example : let framesOf : Object → List Object := fun x => if x = 1 then [3, 4] else [5]
    (∀ x ∈ [1, 2], framesOf x ≠ []) ∧ (∀ x ∈ [1, 2] ++ [1, 2].flatMap framesOf, blank.cOf x ≠ 0) ∧
    (([1, 2] ++ [1, 2].flatMap framesOf).map blank.cOf).Nodup := by decide

/-- What is missing in C105: if the second object of the list is no thread, the exception leaves wrong reference counts: one too few
for the thread, which is then freed too early, and one too many for the other object. -/
theorem C105_not_refs : ∃ s', prepareThreads (fun x => x == 1) (fun _ => true) (fun _ => [3]) 10 [1, 2] blank = (false, s') ∧
    s'.refs 1 = blank.refs 1 - 1 ∧ s'.refs 2 = blank.refs 2 + 1 :=
  ⟨_, rfl, by decide, by decide⟩

/-! ## C106: Python lists of frames -/

/-- **C106.** The Python list made for a linked list of frames has one new object for each frame, in the order of the linked list;
the C structures are not changed. -/
theorem C106_to_list_partial (l : List CPtr) : ∀ (n : Nat) (p : CPtr) (free : Nat) (s : State), l.length < n → Linked s.next p l →
    ∃ s', toList n p free s = some (List.range' free l.length, s') ∧
      (List.range' free l.length).map s'.cOf = l ∧ s'.next = s.next ∧ s'.frames = s.frames ∧ s'.threads = s.threads ∧
      (∀ x : Nat, x < free ∨ free + l.length ≤ x → s'.cOf x = s.cOf x ∧ s'.refs x = s.refs x) ∧
      ∀ x : Nat, free ≤ x → x < free + l.length → s'.refs x = 2 := by
  induction l with
  | nil =>
    intro n p free s hn hp
    cases n with
    | zero => omega
    | succ n =>
      rw [toList, if_pos (show p = 0 from hp)]
      exact ⟨s, rfl, rfl, rfl, rfl, rfl, fun _ _ => ⟨rfl, rfl⟩, fun x h1 h2 => by simp at h2; omega⟩
  | cons c l ih =>
    intro n p free s hn hp
    obtain ⟨rfl, hz, hl⟩ := hp
    simp only [List.length_cons] at hn ⊢
    cases n with
    | zero => omega
    | succ n =>
      rw [toList, if_neg hz]
      dsimp only
      obtain ⟨s', e1, e2, e3, e4, e5, e6, e7⟩ := ih n (s.next p) (free + 1)
        { s with refs := update s.refs free 2, cOf := update s.cOf free p } (by omega) hl
      rw [e1]
      dsimp only
      rw [List.range'_succ]
      refine ⟨s', rfl, ?_, e3, e4, e5, fun x hx => ?_, fun x h1 h2 => ?_⟩
      · rw [List.map_cons, e2, (e6 free (by omega)).1]
        exact congrArg (· :: l) (update_eq _ _ _)
      · obtain ⟨a1, a2⟩ := e6 x (by omega)
        rw [a1, a2]
        exact ⟨update_ne _ _ (by omega), update_ne _ _ (by omega)⟩
      · by_cases hx : x = free
        · subst hx
          rw [(e6 x (by omega)).2]
          exact update_eq _ _ _
        · exact e7 x (by omega) (by omega)

/-- What is missing in C106: each new object has two references although there is only one, that of the list: it is never freed. -/
theorem C106_not_refs : ∃ s s' : State, Linked s.next 1 [1] ∧ toList 5 1 7 s = some ([7], s') ∧ s'.refs 7 = 2 :=
  ⟨blank, _, ⟨rfl, by decide, rfl⟩, rfl, rfl⟩

/-- Making the Python list and then the linked list from it gives the same linked list. -/
theorem C106_round_trip (ok : Object → Bool) (hok : ∀ x, ok x = true) (thread : CPtr) (l : List CPtr) (n : Nat) (free : Object) (s : State)
    (hn : l.length < n) (hl : Linked s.next (s.frames thread) l) (hd : l.Nodup) (hz : ∀ x ∈ l, x ≠ 0) :
    ∃ items s' s'', toList n (s.frames thread) free s = some (items, s') ∧ prepareFrames ok thread items s' = (true, s'') ∧
      Linked s''.next (s''.frames thread) l := by
  obtain ⟨s', e1, e2, e3, e4, -⟩ := C106_to_list_partial l n _ free s hn hl
  cases hi : List.range' free l.length with
  | nil =>
    rw [hi] at e1 e2
    have hl0 : l = [] := e2.symm
    subst hl0
    exact ⟨[], s', s', e1, rfl, by rw [e4]; exact hl⟩
  | cons x xs =>
    rw [hi] at e1 e2
    obtain ⟨s'', f1, _, _, _, f5, _⟩ := prepareFrames_spec ok thread x xs s' (fun y _ => hok y) (by rw [e2]; exact hd)
      (fun y hy => hz _ (by rw [← e2]; exact List.mem_map_of_mem hy))
    rw [e2] at f5
    exact ⟨x :: xs, s', s'', e1, f1, f5⟩

/-! ## C107: the crash thread -/

/-- **C107.** The crash thread of a Python stack trace is the first object of its list of threads whose C structure is the crash
thread that the library finds; None if there is none. It has one more reference; nothing else is changed. -/
theorem C107_crash_thread (okThread : Object → Bool) (crash : CPtr) (items : List Object) (s : State)
    (hok : ∀ x ∈ items, okThread x = true) :
    (∃ before x after, items = before ++ x :: after ∧ (∀ y ∈ before, s.cOf y ≠ crash) ∧ s.cOf x = crash ∧
      getCrash okThread crash items s = some (some x, s.addRef x 1)) ∨
    (∀ y ∈ items, s.cOf y ≠ crash) ∧ getCrash okThread crash items s = some (none, s) := by
  induction items with
  | nil => exact .inr ⟨by simp, rfl⟩
  | cons x l ih =>
    rw [getCrash, if_neg (by simp [hok x (by simp)])]
    by_cases h : s.cOf x = crash
    · rw [if_pos h]
      exact .inl ⟨[], x, l, rfl, by simp, h, rfl⟩
    · rw [if_neg h]
      rcases ih (fun y hy => hok y (by simp [hy])) with ⟨b, y, a, h1, h2, h3, h4⟩ | ⟨h1, h2⟩
      · refine .inl ⟨x :: b, y, a, by rw [h1]; rfl, ?_, h3, h4⟩
        intro z hz
        rcases List.mem_cons.1 hz with rfl | hz
        · exact h
        · exact h2 z hz
      · refine .inr ⟨?_, h2⟩
        intro z hz
        rcases List.mem_cons.1 hz with rfl | hz
        · exact h
        · exact h1 z hz

example : getCrash (fun _ => true) 2 [1, 2, 3] blank = some (some 2, blank.addRef 2 1) := rfl

end Satyr.Py
