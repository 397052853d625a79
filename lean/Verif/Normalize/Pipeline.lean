import Verif.Normalize.Lemmas
/-!
# Both normalizations as one composition of list operations
-/
namespace Satyr.Normalize
open Satyr.CStr Satyr.Threads

/-- The type-specific parts of a normalization. -/
structure Ops (F : Type) where
  exit : F → Bool
  rename : F → F
  rem : F → Bool
  wa : F → Bool
  post : F → F
  null : F → Bool
  same : F → F → Bool

variable {F : Type}

/-- Rewriting the attributes of one frame object. -/
def lift (f : F → F) (n : Node F) : Node F := { n with val := f n.val }

@[simp] theorem lift_id' (f : F → F) (n : Node F) : (lift f n).id = n.id := rfl
@[simp] theorem lift_val (f : F → F) (n : Node F) : (lift f n).val = f n.val := rfl

theorem mapFrames_eq (f : F → F) (t : List (Node F)) : mapFrames f t = t.map (lift f) := rfl

/-- The frames kept by the exit and redundancy steps. -/
def keep (o : Ops F) (t : List (Node F)) : List (Node F) :=
  (afterLast (fun n => o.wa (o.rename n.val)) (afterLast (fun n => o.exit n.val) t)).filter
    fun n => !o.rem (o.rename n.val)

/-- The composition computed by a normalization. -/
def pipeline (o : Ops F) (t : List (Node F)) : List (Node F) :=
  List.destutter (fun a b => o.same a.val b.val = false)
    (dropLastIf (fun n => o.null n.val) (dropFirstIf (fun n => o.null n.val)
      ((keep o t).map (lift fun f => o.post (o.rename f)))))

theorem filter_afterLast_map (o : Ops F) (l : List (Node F)) :
    (afterLast (fun n => o.wa n.val) (l.map (lift o.rename))).filter (fun n => !o.rem n.val) =
      ((afterLast (fun n => o.wa (o.rename n.val)) l).filter fun n => !o.rem (o.rename n.val)).map (lift o.rename) := by
  rw [afterLast_map, List.filter_map]
  rfl

/-- Operations for GDB frames. -/
def gdbOps : Ops GdbFrame where
  exit := gdbIsExit
  rename := fun f => renameGdb (normalizeGdbFrame f)
  rem := fun f => isRemovable f.functionName f.sourceFile
  wa := fun f => isRemovableWithAbove f.functionName f.sourceFile || gdbIsExit f
  post := fun f => f
  null := gdbIsNull
  same := gdbSame

/-- Operations for core frames. -/
def coreOps : Ops CoreFrame where
  exit := coreIsExit
  rename := fun f => renameCore (stripCore f)
  rem := fun f => isRemovable f.functionName f.fileName
  wa := fun f => isRemovableWithAbove f.functionName f.fileName || coreIsExit f
  post := anonymizeCore
  null := coreIsNull
  same := coreSame

theorem wf_of_suffix {s t : List (Node F)} (h : WF t) (hs : s <:+ t) : WF s := h.sublist hs.sublist

theorem normalizeGdb_eq (t : List (Node GdbFrame)) (h : WF t) : normalizeGdb t = .ok (pipeline gdbOps t) := by
  unfold normalizeGdb
  rw [removeExit_eq _ _ h]
  simp only [Out.bind_ok]
  have h1 : WF (afterLast (fun n => gdbIsExit n.val) t) := wf_of_suffix h (afterLast_suffix _ _)
  have h2 := mapFrames_wf renameGdb (mapFrames_wf normalizeGdbFrame h1)
  rw [removeRedundant_self _ _ _ h2]
  simp only [Out.bind_ok, removeFirstNull_eq]
  have hm : mapFrames renameGdb (mapFrames normalizeGdbFrame (afterLast (fun n => gdbIsExit n.val) t)) =
      (afterLast (fun n => gdbIsExit n.val) t).map (lift gdbOps.rename) := by
    rw [mapFrames_eq, mapFrames_eq, List.map_map]; rfl
  rw [hm] at h2 ⊢
  have h3 := h2.sublist (((List.filter_sublist (p := fun n => !isRemovable n.val.functionName n.val.sourceFile)).trans
    (afterLast_suffix (fun n => (isRemovableWithAbove n.val.functionName n.val.sourceFile || gdbIsExit n.val)) _).sublist))
  rw [removeLastNull_eq _ _ (h3.sublist (dropFirstIf_suffix _ _).sublist), mergeRecursive_eq]
  have hf := filter_afterLast_map gdbOps (afterLast (fun n => gdbIsExit n.val) t)
  simp only [gdbOps] at hf ⊢
  rw [hf]
  rfl

theorem normalizeCore_eq (t : List (Node CoreFrame)) (h : WF t) : normalizeCore t = .ok (pipeline coreOps t) := by
  unfold normalizeCore
  rw [removeExit_eq _ _ h]
  simp only [Out.bind_ok]
  have h1 : WF (afterLast (fun n => coreIsExit n.val) t) := wf_of_suffix h (afterLast_suffix _ _)
  have h2 := mapFrames_wf renameCore (mapFrames_wf stripCore h1)
  rw [removeRedundant_self _ _ _ h2]
  simp only [Out.bind_ok, removeFirstNull_eq]
  have hm : mapFrames renameCore (mapFrames stripCore (afterLast (fun n => coreIsExit n.val) t)) =
      (afterLast (fun n => coreIsExit n.val) t).map (lift coreOps.rename) := by
    rw [mapFrames_eq, mapFrames_eq, List.map_map]; rfl
  rw [hm] at h2 ⊢
  have h3 := h2.sublist (((List.filter_sublist (p := fun n => !isRemovable n.val.functionName n.val.fileName)).trans
    (afterLast_suffix (fun n => (isRemovableWithAbove n.val.functionName n.val.fileName || coreIsExit n.val)) _).sublist))
  have h4 := mapFrames_wf anonymizeCore h3
  rw [removeLastNull_eq _ _ (h4.sublist (dropFirstIf_suffix _ _).sublist), mergeRecursive_eq]
  have hf := filter_afterLast_map coreOps (afterLast (fun n => coreIsExit n.val) t)
  simp only [coreOps] at hf ⊢
  rw [hf, mapFrames_eq, List.map_map]
  rfl

theorem keep_sublist (o : Ops F) (t : List (Node F)) : (keep o t).Sublist (afterLast (fun n => o.exit n.val) t) :=
  List.filter_sublist.trans (afterLast_suffix _ _).sublist

theorem keep_props (o : Ops F) (t : List (Node F)) {k : Node F} (h : k ∈ keep o t) :
    o.exit k.val = false ∧ o.rem (o.rename k.val) = false ∧ o.wa (o.rename k.val) = false := by
  unfold keep at h
  rw [List.mem_filter] at h
  refine ⟨afterLast_mem (fun n : Node F => o.exit n.val) ((afterLast_suffix _ _).subset h.1), by simpa using h.2,
    afterLast_mem (fun n : Node F => o.wa (o.rename n.val)) h.1⟩

theorem pipeline_sublist (o : Ops F) (t : List (Node F)) :
    (pipeline o t).Sublist ((keep o t).map (lift fun f => o.post (o.rename f))) :=
  ((List.destutter_sublist _ _).trans (dropLastIf_prefix _ _).sublist).trans (dropFirstIf_suffix _ _).sublist

theorem pipeline_kept (o : Ops F) (t : List (Node F)) : ∃ ks : List (Node F), ks.Sublist (keep o t) ∧
    pipeline o t = ks.map (lift fun f => o.post (o.rename f)) := List.sublist_map_iff.1 (pipeline_sublist o t)

theorem pipeline_chain (o : Ops F) (t : List (Node F)) :
    (pipeline o t).IsChain (fun a b => o.same a.val b.val = false) := List.isChain_destutter _ _

theorem pipeline_wf (o : Ops F) {t : List (Node F)} (h : WF t) : WF (pipeline o t) := by
  obtain ⟨ks, hs, he⟩ := pipeline_kept o t
  rw [he]
  have : WF ks := h.sublist (hs.trans ((keep_sublist o t).trans (afterLast_suffix _ _).sublist))
  unfold WF at *
  rw [List.map_map]
  exact this

/-! ### Stability -/

theorem dropFirstIf_head {A : Type} {p : A → Bool} {l : List A} (h : ∀ x, l.head? = some x → p x = false) :
    dropFirstIf p l = l := by
  cases l with
  | nil => rfl
  | cons a l => rw [dropFirstIf, h a rfl]; simp

theorem dropLastIf_last {A : Type} {p : A → Bool} {l : List A} (h : ∀ x, l.getLast? = some x → p x = false) :
    dropLastIf p l = l := by
  unfold dropLastIf
  rw [dropFirstIf_head, List.reverse_reverse]
  intro x hx
  exact h x (by rwa [List.head?_reverse] at hx)

/-- A thread on which every step of the normalization does nothing is not changed. -/
theorem pipeline_stable (o : Ops F) (r : List (Node F)) (h1 : ∀ n ∈ r, o.exit n.val = false)
    (h2 : ∀ n ∈ r, o.post (o.rename n.val) = n.val) (h3 : ∀ n ∈ r, o.rem (o.rename n.val) = false)
    (h4 : ∀ n ∈ r, o.wa (o.rename n.val) = false) (h5 : ∀ n, r.head? = some n → o.null n.val = false)
    (h6 : ∀ n, r.getLast? = some n → o.null n.val = false)
    (h7 : r.IsChain (fun a b => o.same a.val b.val = false)) : pipeline o r = r := by
  have hk : keep o r = r := by
    unfold keep
    rw [afterLast_none _ h1, afterLast_none _ h4, List.filter_eq_self]
    intro n hn; simp [h3 n hn]
  have hm : r.map (lift fun f => o.post (o.rename f)) = r := by
    conv => rhs; rw [← List.map_id r]
    apply List.map_congr_left
    intro n hn
    unfold lift
    simp only [h2 n hn, id]
  unfold pipeline
  rw [hk, hm, dropFirstIf_head h5, dropLastIf_last h6]
  exact List.destutter_of_isChain _ _ h7

theorem destutter'_ne_nil {A : Type} (R : A → A → Prop) [DecidableRel R] (l : List A) (a : A) :
    List.destutter' R a l ≠ [] := by
  induction l generalizing a with
  | nil => simp
  | cons b l ih =>
    rw [List.destutter'_cons]
    split
    · simp
    · exact ih a

theorem getLast?_destutter' {A : Type} (R : A → A → Prop) [DecidableRel R] (y : A) (hy : ∀ z, R y z) (l : List A) (a : A)
    (h : (List.destutter' R a l).getLast? = some y) : (a :: l).getLast? = some y := by
  induction l generalizing a with
  | nil => simpa using h
  | cons b l ih =>
    rw [List.destutter'_cons] at h
    by_cases hR : R a b
    · rw [if_pos hR] at h
      rw [List.getLast?_cons_of_ne_nil (destutter'_ne_nil R l b)] at h
      rw [List.getLast?_cons_of_ne_nil (by simp)]
      exact ih b h
    · rw [if_neg hR] at h
      have := ih a h
      cases l with
      | nil =>
        have : a = y := by simpa using this
        subst this
        exact absurd (hy b) hR
      | cons c l =>
        rw [List.getLast?_cons_of_ne_nil (by simp)] at this
        rw [List.getLast?_cons_of_ne_nil (by simp), List.getLast?_cons_of_ne_nil (by simp)]
        exact this

theorem getLast?_destutter {A : Type} (R : A → A → Prop) [DecidableRel R] (y : A) (hy : ∀ z, R y z) (l : List A)
    (h : (List.destutter R l).getLast? = some y) : l.getLast? = some y := by
  cases l with
  | nil => simp at h
  | cons a l => exact getLast?_destutter' R y hy l a h

theorem head?_destutter' {A : Type} (R : A → A → Prop) [DecidableRel R] (l : List A) (a : A) :
    (List.destutter' R a l).head? = some a := by
  induction l generalizing a with
  | nil => simp
  | cons b l ih =>
    rw [List.destutter'_cons]
    split
    · simp
    · exact ih a

theorem head?_destutter {A : Type} (R : A → A → Prop) [DecidableRel R] (l : List A) :
    (List.destutter R l).head? = l.head? := by
  cases l with
  | nil => simp
  | cons a l => exact head?_destutter' R l a

/-- With at most one element satisfying `p`, removing a first and a last such element leaves none at the ends. -/
theorem dropEnds {A : Type} (p : A → Bool) (l : List A) (h : (l.filter p).length ≤ 1) :
    (∀ x, (dropLastIf p (dropFirstIf p l)).head? = some x → p x = false) ∧
    (∀ x, (dropLastIf p (dropFirstIf p l)).getLast? = some x → p x = false) := by
  cases l with
  | nil => simp [dropFirstIf, dropLastIf]
  | cons a l =>
    by_cases ha : p a = true
    · have hl : ∀ x ∈ l, p x = false := by
        rw [List.filter_cons_of_pos ha, List.length_cons] at h
        have : (l.filter p) = [] := List.length_eq_zero_iff.1 (by omega)
        intro x hx
        simpa using (List.filter_eq_nil_iff.1 this) x hx
      have e : dropFirstIf p (a :: l) = l := by rw [dropFirstIf, if_pos ha]
      rw [e, dropLastIf_last (fun x hx => hl x (List.mem_of_getLast? hx))]
      exact ⟨fun x hx => hl x (List.mem_of_mem_head? hx), fun x hx => hl x (List.mem_of_getLast? hx)⟩
    · have e : dropFirstIf p (a :: l) = a :: l := by rw [dropFirstIf, if_neg ha]
      rw [e]
      rcases List.eq_nil_or_concat (a :: l) with h0 | ⟨m, x, hm⟩
      · simp at h0
      · rw [List.concat_eq_append] at hm
        rw [hm] at h ⊢
        rw [dropLastIf_snoc]
        have hhead : ∀ y, (m ++ [x]).head? = some y → p y = false := by
          intro y hy
          rw [← hm] at hy
          simp only [List.head?_cons, Option.some.injEq] at hy
          subst hy; simpa using ha
        by_cases hx : p x = true
        · rw [if_pos hx]
          have hl : ∀ y ∈ m, p y = false := by
            rw [List.filter_append, List.filter_cons_of_pos hx, List.length_append] at h
            have : m.filter p = [] := List.length_eq_zero_iff.1 (by simp at h ⊢; omega)
            intro y hy
            simpa using (List.filter_eq_nil_iff.1 this) y hy
          exact ⟨fun y hy => hl y (List.mem_of_mem_head? hy), fun y hy => hl y (List.mem_of_getLast? hy)⟩
        · rw [if_neg hx]
          refine ⟨hhead, ?_⟩
          intro y hy
          rw [List.getLast?_concat] at hy
          cases hy; simpa using hx

theorem length_filter_sublist {A : Type} (p : A → Bool) {s t : List A} (h : s.Sublist t) :
    (s.filter p).length ≤ (t.filter p).length := (h.filter p).length_le

/-- Idempotence of a pipeline whose renaming is stable on the frames of the thread and which meets at most one null
frame. -/
theorem pipeline_idem (o : Ops F) (t : List (Node F))
    (hsame : ∀ f g, o.null f = true → o.same f g = false)
    (hpost : ∀ n ∈ t, ∀ f, f = o.post (o.rename n.val) →
      o.post (o.rename f) = f ∧ (o.rem (o.rename n.val) = false → o.rem (o.rename f) = false) ∧
      (o.wa (o.rename n.val) = false → o.wa (o.rename f) = false ∧ o.exit f = false))
    (hnull : (t.filter fun n => o.null (o.post (o.rename n.val))).length ≤ 1) :
    pipeline o (pipeline o t) = pipeline o t := by
  obtain ⟨ks, hs, he⟩ := pipeline_kept o t
  have hst : ks.Sublist t := hs.trans ((keep_sublist o t).trans (afterLast_suffix _ _).sublist)
  have hmem : ∀ n ∈ pipeline o t, ∃ k ∈ keep o t, k ∈ t ∧ n = lift (fun f => o.post (o.rename f)) k := by
    intro n hn
    rw [he, List.mem_map] at hn
    obtain ⟨k, hk, rfl⟩ := hn
    exact ⟨k, hs.subset hk, hst.subset hk, rfl⟩
  have hn1 : (((keep o t).map (lift fun f => o.post (o.rename f))).filter fun n => o.null n.val).length ≤ 1 := by
    rw [List.filter_map, List.length_map]
    have h1 := length_filter_sublist (fun n => o.null (o.post (o.rename n.val)))
      ((keep_sublist o t).trans (afterLast_suffix (fun n => o.exit n.val) t).sublist)
    exact le_trans h1 hnull
  obtain ⟨e1, e2⟩ := dropEnds (fun n : Node F => o.null n.val) _ hn1
  apply pipeline_stable
  · intro n hn
    obtain ⟨k, hk, hkt, rfl⟩ := hmem n hn
    exact ((hpost k hkt _ rfl).2.2 (keep_props o t hk).2.2).2
  · intro n hn
    obtain ⟨k, hk, hkt, rfl⟩ := hmem n hn
    exact (hpost k hkt _ rfl).1
  · intro n hn
    obtain ⟨k, hk, hkt, rfl⟩ := hmem n hn
    exact (hpost k hkt _ rfl).2.1 (keep_props o t hk).2.1
  · intro n hn
    obtain ⟨k, hk, hkt, rfl⟩ := hmem n hn
    exact ((hpost k hkt _ rfl).2.2 (keep_props o t hk).2.2).1
  · intro n hn
    unfold pipeline at hn
    rw [head?_destutter] at hn
    exact e1 n hn
  · intro n hn
    by_contra hnn
    have hnn : o.null n.val = true := by simpa using hnn
    unfold pipeline at hn
    have := getLast?_destutter _ n (fun z => hsame n.val z.val hnn) _ hn
    exact absurd hnn (by simp [e2 n this])
  · exact pipeline_chain o t

end Satyr.Normalize
