import Verif.Normalize.Pipeline
/-!
# Properties of thread normalization (C14, C15, C16)
-/
namespace Satyr.Normalize
open Satyr.CStr Satyr.Threads

/-! ### Frames -/

theorem gdb_renamed (k : GdbFrame) : GdbRenamed k (gdbOps.post (gdbOps.rename k)) := by
  unfold GdbRenamed
  simp only [gdbOps]
  unfold renameGdb normalizeGdbFrame
  cases hf : k.sourceFile with
  | none =>
    simp only [hf, Option.isSome_none, Bool.false_eq_true, if_false, findNewName_no_file]
    refine ⟨by cases k; simp only at hf; subst hf; rfl, ?_⟩
    cases hn : k.functionName <;> simp
  | some file =>
    simp only [Option.isSome_some, if_true]
    cases hn : k.functionName with
    | none => simp [stripPrefixes_eq, findNewName_no_name]
    | some old =>
      simp only [stripPrefixes_eq, Option.map_some]
      obtain ⟨r, hr, hN⟩ := findNewName_spec old file
      cases hfn : findNewName (some (stripSpec old)) (some file) with
      | none => rw [hfn] at hr; exact ⟨rfl, r, by simpa using hr.symm, hN⟩
      | some n => rw [hfn] at hr; exact ⟨rfl, r, by simpa using hr.symm, hN⟩

theorem core_renamed (k : CoreFrame) : CoreRenamed k (coreOps.post (coreOps.rename k)) := by
  unfold CoreRenamed
  simp only [coreOps]
  unfold anonymizeCore renameCore stripCore
  cases hf : k.fileName with
  | none =>
    simp only [findNewName_no_file]
    refine ⟨by simp, ?_⟩
    cases hn : k.functionName <;> simp [stripPrefixes_eq]
  | some file =>
    cases hn : k.functionName with
    | none => simp [stripPrefixes_eq, findNewName_no_name]
    | some old =>
      simp only [stripPrefixes_eq, Option.map_some]
      obtain ⟨r, hr, hN⟩ := findNewName_spec old file
      cases hfn : findNewName (some (stripSpec old)) (some file) with
      | none => rw [hfn] at hr; exact ⟨by simp, r, by simpa using hr.symm, hN⟩
      | some n => rw [hfn] at hr; exact ⟨by simp, r, by simpa using hr.symm, hN⟩

/-! ## C14: normalization only deletes frames and renames functions -/

/-- C14: normalizing a GDB thread succeeds; the resulting frames are, in order, some of the original frame objects, each
unchanged but for the documented normalization of its function name. -/
theorem C14_gdb (t : List (Node GdbFrame)) (h : WF t) :
    ∃ r ks, normalizeGdb t = .ok r ∧ ks.Sublist t ∧
      List.Forall₂ (fun k n => n.id = k.id ∧ GdbRenamed k.val n.val) ks r := by
  obtain ⟨ks, hs, he⟩ := pipeline_kept gdbOps t
  refine ⟨pipeline gdbOps t, ks, normalizeGdb_eq t h, hs.trans ((keep_sublist _ t).trans (afterLast_suffix _ _).sublist), ?_⟩
  rw [he, List.forall₂_map_right_iff]
  rw [List.forall₂_same]
  exact fun k _ => ⟨rfl, gdb_renamed k.val⟩

/-- C14: normalizing a core thread succeeds; the resulting frames are, in order, some of the original frame objects, each
unchanged but for the documented normalization of its function name and the anonymized file name. -/
theorem C14_core (t : List (Node CoreFrame)) (h : WF t) :
    ∃ r ks, normalizeCore t = .ok r ∧ ks.Sublist t ∧
      List.Forall₂ (fun k n => n.id = k.id ∧ CoreRenamed k.val n.val) ks r := by
  obtain ⟨ks, hs, he⟩ := pipeline_kept coreOps t
  refine ⟨pipeline coreOps t, ks, normalizeCore_eq t h, hs.trans ((keep_sublist _ t).trans (afterLast_suffix _ _).sublist), ?_⟩
  rw [he, List.forall₂_map_right_iff]
  rw [List.forall₂_same]
  exact fun k _ => ⟨rfl, core_renamed k.val⟩

/-! ## C15: normalization removes what it promises, and nothing else -/

theorem mem_afterLast_split {A : Type} (p : A → Bool) {pre post : List A} {e : A} (he : p e = true) :
    afterLast p (pre ++ e :: post) <:+ post := by
  rcases last_cases p post with h | ⟨pre', e', post', h1, h2, h3⟩
  · rw [afterLast_split p he h]
  · have : pre ++ e :: post = (pre ++ e :: pre') ++ e' :: post' := by rw [h1]; simp
    rw [this, afterLast_split p h2 h3, h1]
    exact ⟨pre' ++ [e'], by simp⟩

/-- C15: from a normalized GDB thread are gone all frames down to and including any exit frame, all removable functions,
all functions hiding what is above them, and repetitions of a known function. -/
theorem C15_gdb (t : List (Node GdbFrame)) (h : WF t) :
    ∃ r, normalizeGdb t = .ok r ∧
      (∀ pre e post, t = pre ++ e :: post → Listed gdbExitTable e.val.functionName e.val.sourceFile →
        (r.map Node.id).Sublist (post.map Node.id)) ∧
      (∀ n ∈ r, ¬ Listed removableTable n.val.functionName n.val.sourceFile ∧
        ¬ Listed removableWithAboveTable n.val.functionName n.val.sourceFile ∧
        ¬ Listed gdbExitTable n.val.functionName n.val.sourceFile) ∧
      r.IsChain (fun a b => ¬ (a.val.functionName = b.val.functionName ∧ a.val.functionName ≠ some c!"??")) := by
  refine ⟨pipeline gdbOps t, normalizeGdb_eq t h, ?_, ?_, ?_⟩
  · intro pre e post ht he
    obtain ⟨ks, hs, hk⟩ := pipeline_kept gdbOps t
    rw [hk, List.map_map]
    have : (Node.id ∘ lift fun f => gdbOps.post (gdbOps.rename f)) = Node.id := rfl
    rw [this]
    apply List.Sublist.map
    have h2 := hs.trans (keep_sublist gdbOps t)
    subst ht
    refine h2.trans (mem_afterLast_split _ ?_).sublist
    exact (any_callMatch_iff _ _ _).2 he
  · intro n hn
    obtain ⟨ks, hs, hk⟩ := pipeline_kept gdbOps t
    rw [hk, List.mem_map] at hn
    obtain ⟨k, hkm, rfl⟩ := hn
    obtain ⟨_, p2, p3⟩ := keep_props gdbOps t (hs.subset hkm)
    have q3 := Bool.or_eq_false_iff.1 p3
    refine ⟨?_, ?_, ?_⟩
    · rw [← isRemovable_iff]; exact fun hh => Bool.noConfusion (p2.symm.trans hh)
    · rw [← any_callMatch_iff]; exact fun hh => Bool.noConfusion (q3.1.symm.trans hh)
    · rw [← any_callMatch_iff]; exact fun hh => Bool.noConfusion (q3.2.symm.trans hh)
  · apply (pipeline_chain gdbOps t).imp
    rintro a b hab ⟨h1, h2⟩
    simp only [gdbOps, gdbSame, Bool.and_eq_false_iff] at hab
    rcases hab with hab | hab
    · rw [bne_eq_false_iff_eq, strcmp0_eq_zero] at hab; exact h2 hab
    · rw [h1, strcmp0_self] at hab; simp at hab

/-- C15: the same for a core thread; file names are those before anonymization. -/
theorem C15_core (t : List (Node CoreFrame)) (h : WF t) :
    ∃ r, normalizeCore t = .ok r ∧
      (∀ pre e post, t = pre ++ e :: post → ListedAny coreExitTable e.val.functionName e.val.fileName →
        (r.map Node.id).Sublist (post.map Node.id)) ∧
      (∀ n ∈ r, ∃ k ∈ t, k.id = n.id ∧ ¬ Listed removableTable n.val.functionName k.val.fileName ∧
        ¬ Listed removableWithAboveTable n.val.functionName k.val.fileName ∧
        ¬ ListedAny coreExitTable n.val.functionName k.val.fileName) ∧
      r.IsChain (fun a b => ¬ (a.val.functionName = b.val.functionName ∧ a.val.functionName ≠ none)) := by
  refine ⟨pipeline coreOps t, normalizeCore_eq t h, ?_, ?_, ?_⟩
  · intro pre e post ht he
    obtain ⟨ks, hs, hk⟩ := pipeline_kept coreOps t
    rw [hk, List.map_map]
    have : (Node.id ∘ lift fun f => coreOps.post (coreOps.rename f)) = Node.id := rfl
    rw [this]
    apply List.Sublist.map
    have h2 := hs.trans (keep_sublist coreOps t)
    subst ht
    refine h2.trans (mem_afterLast_split _ ?_).sublist
    exact (any_coreCalls_iff _ _).2 he
  · intro n hn
    obtain ⟨ks, hs, hk⟩ := pipeline_kept coreOps t
    rw [hk, List.mem_map] at hn
    obtain ⟨k, hkm, rfl⟩ := hn
    obtain ⟨_, p2, p3⟩ := keep_props coreOps t (hs.subset hkm)
    have q3 := Bool.or_eq_false_iff.1 p3
    have hfile : (coreOps.rename k.val).fileName = k.val.fileName := by
      simp only [coreOps, renameCore, stripCore]; split <;> rfl
    have hname : (coreOps.post (coreOps.rename k.val)).functionName = (coreOps.rename k.val).functionName := rfl
    refine ⟨k, ((hs.trans (keep_sublist coreOps t)).trans (afterLast_suffix _ _).sublist).subset hkm, rfl, ?_, ?_, ?_⟩
    · rw [← isRemovable_iff, ← hfile]; exact fun hh => Bool.noConfusion (p2.symm.trans hh)
    · rw [← any_callMatch_iff, ← hfile]; exact fun hh => Bool.noConfusion (q3.1.symm.trans hh)
    · rw [← hfile]
      intro hh
      exact Bool.noConfusion (q3.2.symm.trans ((any_coreCalls_iff coreExitTable (coreOps.rename k.val)).2 hh))
  · apply (pipeline_chain coreOps t).imp
    rintro a b hab ⟨h1, h2⟩
    simp only [coreOps, coreSame, Bool.and_eq_false_iff] at hab
    rcases hab with hab | hab
    · cases hn : a.val.functionName with
      | none => exact h2 hn
      | some n => rw [hn] at hab; simp at hab
    · rw [h1, strcmp0_self] at hab; simp at hab

/-- C15: nothing else is removed from a GDB thread. If no frame is an exit frame, removable, hiding, or null, and no
known function repeats, all frames stay. -/
theorem C15_gdb_keeps (t : List (Node GdbFrame)) (h : WF t)
    (h1 : ∀ n ∈ t, ¬ Listed gdbExitTable n.val.functionName n.val.sourceFile)
    (h2 : ∀ n ∈ t, ∀ m, GdbRenamed n.val m → ¬ Listed removableTable m.functionName m.sourceFile ∧
      ¬ Listed removableWithAboveTable m.functionName m.sourceFile ∧ ¬ Listed gdbExitTable m.functionName m.sourceFile ∧
      ¬ (m.address = 0 ∧ m.functionName = some c!"??"))
    (h3 : t.IsChain (fun a b => ∀ x y, GdbRenamed a.val x → GdbRenamed b.val y → x.functionName ≠ y.functionName)) :
    ∃ r, normalizeGdb t = .ok r ∧ r.map Node.id = t.map Node.id := by
  have hk : keep gdbOps t = t := by
    unfold keep
    have e1 : afterLast (fun n : Node GdbFrame => gdbOps.exit n.val) t = t := by
      apply afterLast_none
      intro n hn
      exact Bool.eq_false_iff.2 (fun hh => h1 n hn ((any_callMatch_iff gdbExitTable _ _).1 hh))
    have e2 : afterLast (fun n : Node GdbFrame => gdbOps.wa (gdbOps.rename n.val)) t = t := by
      apply afterLast_none
      intro n hn
      have := h2 n hn _ (gdb_renamed n.val)
      have a1 := Bool.eq_false_iff.2 (fun hh => this.2.1 ((any_callMatch_iff removableWithAboveTable _ _).1 hh))
      have a2 := Bool.eq_false_iff.2 (fun hh => this.2.2.1 ((any_callMatch_iff gdbExitTable _ _).1 hh))
      exact Bool.or_eq_false_iff.2 ⟨a1, a2⟩
    rw [e1, e2, List.filter_eq_self]
    intro n hn
    have := Bool.eq_false_iff.2 (fun hh => (h2 n hn _ (gdb_renamed n.val)).1 ((isRemovable_iff _ _).1 hh))
    rw [Bool.not_eq_true']
    exact this
  have hnull : ∀ n ∈ t.map (lift fun f => gdbOps.post (gdbOps.rename f)), gdbOps.null n.val = false := by
    intro n hn
    rw [List.mem_map] at hn
    obtain ⟨k, hk, rfl⟩ := hn
    have := (h2 k hk _ (gdb_renamed k.val)).2.2.2
    rw [lift_val, Bool.eq_false_iff]
    intro hh
    apply this
    change gdbIsNull _ = true at hh
    unfold gdbIsNull at hh
    rw [Bool.and_eq_true] at hh
    refine ⟨by simpa using hh.1, ?_⟩
    cases hn : (gdbOps.post (gdbOps.rename k.val)).functionName with
    | none => rw [hn] at hh; simp at hh
    | some nm =>
      rw [hn] at hh
      have := hh.2
      simp only [beq_iff_eq] at this
      rw [strcmp_eq_zero] at this; rw [this]
  refine ⟨pipeline gdbOps t, normalizeGdb_eq t h, ?_⟩
  unfold pipeline
  rw [hk, dropFirstIf_head (fun x hx => hnull x (List.mem_of_mem_head? hx)),
    dropLastIf_last (fun x hx => hnull x (List.mem_of_getLast? hx)), List.destutter_of_isChain, List.map_map]
  · rfl
  · rw [List.isChain_map]
    apply h3.imp
    intro a b hab
    have := hab _ _ (gdb_renamed a.val) (gdb_renamed b.val)
    simp only [lift_val]
    change gdbSame _ _ = false
    unfold gdbSame
    rw [Bool.and_eq_false_iff]
    right
    rw [Bool.eq_false_iff]
    intro hh
    simp only [beq_iff_eq] at hh
    exact this (strcmp0_eq_zero.1 hh)

/-! ## C16: idempotence -/

theorem filter_length_mono {A : Type} (p q : A → Bool) (l : List A) (h : ∀ x, p x = true → q x = true) :
    (l.filter p).length ≤ (l.filter q).length := by
  rw [← List.countP_eq_length_filter, ← List.countP_eq_length_filter]
  exact List.countP_mono_left (fun x _ => h x)

theorem gdb_rename_stable (k : GdbFrame) (hk : ∀ n, k.functionName = some n → ¬ DoublePrefix n) :
    gdbOps.rename (gdbOps.rename k) = gdbOps.rename k := by
  simp only [gdbOps]
  cases hf : k.sourceFile with
  | none => simp [renameGdb, normalizeGdbFrame, hf, findNewName_no_file]
  | some file =>
    cases hn : k.functionName with
    | none => simp [renameGdb, normalizeGdbFrame, hf, hn, stripPrefixes_eq, findNewName_no_name]
    | some old =>
      simp only [renameGdb, normalizeGdbFrame, hf, hn, stripPrefixes_eq, Option.map_some, Option.isSome_some, if_true]
      cases hfn : findNewName (some (stripSpec old)) (some file) with
      | none => simp [stripSpec_stable (hk old hn), hfn]
      | some new =>
        obtain ⟨_, hfm, rfl⟩ := findNewName_some hfn
        simp [stripSpec_canonical _ hfm, findNewName_canonical _ hfm]

theorem core_rename_file (k : CoreFrame) : (coreOps.rename k).fileName = k.fileName := by
  simp only [coreOps, renameCore, stripCore]; split <;> rfl

theorem core_rename_stable (k : CoreFrame) (hk : ∀ n, k.functionName = some n → ¬ DoublePrefix n) :
    coreOps.rename (coreOps.post (coreOps.rename k)) = coreOps.post (coreOps.rename k) := by
  simp only [coreOps, anonymizeCore]
  have mono : ∀ name file, findNewName name file = none → findNewName name (file.map anonymizePath) = none := by
    intro name file h
    apply findNewName_none_mono h
    intro f hf s hs
    exact fileMatch_anonymize _ (arch_safe f hf s hs) file
  cases hn : k.functionName with
  | none => simp [renameCore, stripCore, hn, stripPrefixes_eq, findNewName_no_name]
  | some old =>
    simp only [renameCore, stripCore, hn, stripPrefixes_eq, Option.map_some]
    cases hfn : findNewName (some (stripSpec old)) k.fileName with
    | none => simp [stripSpec_stable (hk old hn), mono _ _ hfn]
    | some new =>
      obtain ⟨_, hfm, rfl⟩ := findNewName_some hfn
      simp [stripSpec_canonical _ hfm, findNewName_canonical _ hfm]

/-- C16, for GDB threads without repeated prefixes and with at most one frame at address 0: normalizing a second time
changes nothing. -/
theorem C16_gdb_partial (t : List (Node GdbFrame)) (h : WF t)
    (h1 : ∀ n ∈ t, ∀ f, n.val.functionName = some f → ¬ DoublePrefix f)
    (h2 : (t.filter fun n => n.val.address == 0).length ≤ 1) :
    ∃ r, normalizeGdb t = .ok r ∧ normalizeGdb r = .ok r := by
  refine ⟨pipeline gdbOps t, normalizeGdb_eq t h, ?_⟩
  rw [normalizeGdb_eq _ (pipeline_wf gdbOps h)]
  refine congrArg Out.ok ?_
  apply pipeline_idem
  · intro f g hf
    simp only [gdbOps, gdbIsNull, gdbSame] at *
    cases hn : f.functionName with
    | none => rw [hn] at hf; simp at hf
    | some n =>
      rw [hn] at hf
      simp only [Bool.and_eq_true, beq_iff_eq, strcmp_eq_zero] at hf
      rw [hf.2, strcmp0_self]; rfl
  · rintro n hn f rfl
    have := gdb_rename_stable n.val (fun x hx => h1 n hn x hx)
    have e : gdbOps.post (gdbOps.rename n.val) = gdbOps.rename n.val := rfl
    rw [e, this]
    exact ⟨rfl, id, fun hw => ⟨hw, (Bool.or_eq_false_iff.1 hw).2⟩⟩
  · refine le_trans (filter_length_mono (fun n : Node GdbFrame => gdbIsNull (gdbOps.post (gdbOps.rename n.val)))
      (fun n => n.val.address == 0) t ?_) h2
    intro n hn
    unfold gdbIsNull at hn
    rw [Bool.and_eq_true] at hn
    have := (gdb_renamed n.val).1
    rw [this] at hn
    exact hn.1

/-- C16, for core threads without repeated prefixes and with at most one frame at address 0: normalizing a second time
changes nothing. -/
theorem C16_core_partial (t : List (Node CoreFrame)) (h : WF t)
    (h1 : ∀ n ∈ t, ∀ f, n.val.functionName = some f → ¬ DoublePrefix f)
    (h2 : (t.filter fun n => n.val.address == 0).length ≤ 1) :
    ∃ r, normalizeCore t = .ok r ∧ normalizeCore r = .ok r := by
  refine ⟨pipeline coreOps t, normalizeCore_eq t h, ?_⟩
  rw [normalizeCore_eq _ (pipeline_wf coreOps h)]
  refine congrArg Out.ok ?_
  apply pipeline_idem
  · intro f g hf
    simp only [coreOps, coreIsNull, coreSame, Bool.and_eq_true] at *
    cases hn : f.functionName with
    | none => rfl
    | some n => rw [hn] at hf; simp at hf
  · rintro n hn f rfl
    rw [core_rename_stable n.val (fun x hx => h1 n hn x hx)]
    have hfile := core_rename_file n.val
    generalize coreOps.rename n.val = m at hfile
    refine ⟨?_, ?_, ?_⟩
    · simp only [coreOps, anonymizeCore, Option.map_map]
      cases m.fileName with
      | none => rfl
      | some f => simp [C31_idempotent]
    · intro hr
      rw [Bool.eq_false_iff] at *
      intro hh
      exact hr ((isRemovable_iff _ _).2 (listed_anonymize _ removable_safe _ _ ((isRemovable_iff _ _).1 hh)))
    · intro hw
      have hw := Bool.or_eq_false_iff.1 hw
      have c2 : coreOps.exit (coreOps.post m) = false := by
        rw [Bool.eq_false_iff]
        intro hh
        have := (any_coreCalls_iff coreExitTable m).2
          (listedAny_anonymize _ coreExit_safe _ _ ((any_coreCalls_iff coreExitTable (coreOps.post m)).1 hh))
        exact Bool.noConfusion (hw.2.symm.trans this)
      refine ⟨Bool.or_eq_false_iff.2 ⟨?_, c2⟩, c2⟩
      rw [Bool.eq_false_iff]
      intro hh
      have := (any_callMatch_iff removableWithAboveTable _ _).2
        (listed_anonymize _ withAbove_safe _ _ ((any_callMatch_iff removableWithAboveTable _ _).1 hh))
      exact Bool.noConfusion (hw.1.symm.trans this)
  · refine le_trans (filter_length_mono (fun n : Node CoreFrame => coreIsNull (coreOps.post (coreOps.rename n.val)))
      (fun n => n.val.address == 0) t ?_) h2
    intro n hn
    unfold coreIsNull at hn
    rw [Bool.and_eq_true] at hn
    have := (core_renamed n.val).1
    rw [this] at hn
    exact hn.1

/-- A frame with the given id, name and file. -/
def mkGdb (id : Nat) (name : Str) (file : Option Str) (address : Nat) : Node GdbFrame :=
  ⟨id, { functionName := some name, sourceFile := file, address := address }⟩

/-- C16 fails in general: three frames at address 0 with unknown names need two rounds. -/
theorem C16_not_idempotent_null : ∃ t r, WF t ∧ normalizeGdb t = .ok r ∧ ∃ r', normalizeGdb r = .ok r' ∧ r' ≠ r :=
  ⟨[mkGdb 0 c!"??" none 0, mkGdb 1 c!"??" none 0, mkGdb 2 c!"??" none 0], [mkGdb 1 c!"??" none 0], by unfold WF; decide,
    by decide +kernel, [], by decide +kernel, by decide⟩

/-- C16 fails in general: a doubled prefix is removed one at a time. -/
theorem C16_not_idempotent_prefix : ∃ t r, WF t ∧ normalizeGdb t = .ok r ∧ ∃ r', normalizeGdb r = .ok r' ∧ r' ≠ r :=
  ⟨[mkGdb 0 c!"__GI___GI_foo" (some c!"a.c") 1], [mkGdb 0 c!"__GI_foo" (some c!"a.c") 1], by unfold WF; decide,
    by decide +kernel, [mkGdb 0 c!"foo" (some c!"a.c") 1], by decide +kernel, by decide⟩

/-! ### Non-vacuity -/

/-- A thread with exit frames, removable and repeated frames, and a renamed function. -/
def sampleGdb : List (Node GdbFrame) :=
  [mkGdb 0 c!"raise" (some c!"raise.c") 1, mkGdb 1 c!"abort" (some c!"abort.c") 2, mkGdb 2 c!"g_log" (some c!"gmessages.c") 3,
   mkGdb 3 c!"__strlen_sse2" (some c!"../sysdeps/x86_64/strlen.S") 4, mkGdb 4 c!"work" (some c!"a.c") 5,
   mkGdb 5 c!"work" (some c!"a.c") 6, mkGdb 6 c!"__GI_main" (some c!"a.c") 7]

example : WF sampleGdb ∧ (∀ n ∈ sampleGdb, ∀ f, n.val.functionName = some f → ¬ DoublePrefix f) ∧
    (sampleGdb.filter fun n => n.val.address == 0).length ≤ 1 := by
  refine ⟨by unfold WF; decide, ?_, by decide +kernel⟩
  have : ∀ n ∈ sampleGdb, (∀ p ∈ [c!"IA__gdk", c!"IA__g_", c!"IA__gtk", c!"__GI_"],
      (c!"__GI_" ++ p).isPrefixOf (n.val.functionName.getD []) = false) := by decide +kernel
  intro n hn f hf hd
  obtain ⟨p, hp, hpre⟩ := hd
  have := this n hn p hp
  rw [hf, Option.getD_some, List.isPrefixOf_iff_prefix.2 hpre] at this
  cases this
example : normalizeGdb sampleGdb = .ok [mkGdb 3 c!"strlen" (some c!"../sysdeps/x86_64/strlen.S") 4,
    mkGdb 4 c!"work" (some c!"a.c") 5, mkGdb 6 c!"main" (some c!"a.c") 7] := by decide +kernel
example : Listed gdbExitTable (some c!"raise") (some c!"raise.c") :=
  (any_callMatch_iff _ _ _).1 (by decide +kernel)
example : Listed removableTable (some c!"g_log") (some c!"gmessages.c") :=
  (isRemovable_iff _ _).1 (by decide +kernel)
example : normalizeCore
    [⟨0, { functionName := some c!"raise", fileName := some c!"/lib64/libc.so.6", address := 1 }⟩,
     ⟨1, { functionName := some c!"f", fileName := some c!"/home/jo/bin/x", address := 2 }⟩,
     ⟨2, { address := 0 }⟩] =
    .ok [⟨1, { functionName := some c!"f", fileName := some c!"/home/anonymized/bin/x", address := 2 }⟩] := by
  decide +kernel
example : WF [mkGdb 0 c!"f" none 1, mkGdb 1 c!"g" none 2] := by unfold WF; decide
example : normalizeGdb [mkGdb 0 c!"f" none 1, mkGdb 1 c!"g" none 2] = .ok [mkGdb 0 c!"f" none 1, mkGdb 1 c!"g" none 2] := by
  decide +kernel

end Satyr.Normalize
