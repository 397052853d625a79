import Verif.Short.Lines
import Verif.Normalize.Main
import Verif.Normalize.Props
import Verif.Gdb.Lib
/-!
# C77, C78: the short text and the crash frame of gdb stack traces
-/
namespace Satyr.Short
open Satyr.CStr Satyr.Frames Satyr.Normalize Satyr.Threads Satyr.Crash

/-! ## Specification -/

/-- A frame that can be in an optimized thread: its function is known and is not `main`. -/
def Shown (f : GdbFrame) : Prop := ∃ n, f.functionName = some n ∧ n ≠ c!"main"

instance (f : GdbFrame) : Decidable (Shown f) :=
  decidable_of_iff (f.functionName.isSome ∧ f.functionName ≠ some c!"main") (by
    unfold Shown
    cases f.functionName with
    | none => simp
    | some n => simp)

/-- The first `max` elements; all of them if there is no limit. -/
def upTo {α : Type} (max : Int) (l : List α) : List α := if 0 < max then l.take max.toNat else l

/-- Everything but the name of the library. -/
def SameButLibrary (f g : GdbFrame) : Prop := g = { f with libraryName := g.libraryName }

theorem forall₂_sublist {α β : Type} {R : α → β → Prop} {l : List α} {m : List β} (h : List.Forall₂ R l m) :
    ∀ {m' : List β}, m'.Sublist m → ∃ l' : List α, l'.Sublist l ∧ List.Forall₂ R l' m' := by
  induction h with
  | nil =>
    intro m' hm
    rw [List.sublist_nil.1 hm]
    exact ⟨[], List.Sublist.refl _, .nil⟩
  | @cons a b l m hab h ih =>
    intro m' hm
    cases hm with
    | cons _ hm =>
      obtain ⟨l', h1, h2⟩ := ih hm
      exact ⟨l', h1.cons a, h2⟩
    | cons_cons _ hm =>
      obtain ⟨l', h1, h2⟩ := ih hm
      exact ⟨a :: l', h1.cons_cons a, .cons hab h2⟩

theorem forall₂_comp {α β γ : Type} {R : α → β → Prop} {S : β → γ → Prop} {l : List α} {m : List β} (h : List.Forall₂ R l m) :
    ∀ {n : List γ}, List.Forall₂ S m n → List.Forall₂ (fun a c => ∃ b, R a b ∧ S b c) l n := by
  induction h with
  | nil => intro n h; cases h; exact .nil
  | cons hab h ih =>
    intro n hn
    cases hn with
    | cons hs hn => exact .cons ⟨_, hab, hs⟩ (ih hn)

/-! ## The optimized thread -/

theorem removeUnnamed_eq (rest : List (Node GdbFrame)) : ∀ pre, WF (pre ++ rest) →
    removeUnnamed rest (pre ++ rest) = pre ++ rest.filter fun n => n.val.functionName.isSome := by
  induction rest with
  | nil => intro pre _; rfl
  | cons n rest ih =>
    intro pre h
    rw [removeUnnamed]
    cases hf : n.val.functionName with
    | none =>
      rw [if_pos (by rfl), removeFrame_append n.id pre n rest rfl h.pre_ne.1, List.filter_cons_of_neg (by simp [hf])]
      exact ih pre (h.sublist (by simp))
    | some f =>
      rw [if_neg (by simp), List.filter_cons_of_pos (by simp [hf])]
      have := ih (pre ++ [n]) (by simpa using h)
      simpa using this

theorem limit_eq (max : Int) (t : List (Node GdbFrame)) : limit max t = .ok (upTo max t) := by
  unfold limit upTo
  split
  · rw [C13_remove_frames_below, if_pos (by omega)]
  · rfl

theorem withLibs_ok (libs : List Sharedlib) (fs : List GdbFrame) (h : ∀ l ∈ libs, l.soname ≠ none) :
    ∃ gs, withLibs libs fs = .ok gs ∧ List.Forall₂ SameButLibrary fs gs := by
  unfold withLibs
  split
  · exact ⟨fs, rfl, List.forall₂_same.2 fun f _ => rfl⟩
  · obtain ⟨gs, h1, h2⟩ := Gdb.C65_libnames libs fs h
    refine ⟨gs, h1, h2.imp ?_⟩
    rintro f g (⟨_, _, s, _, _, _, _, rfl⟩ | ⟨_, rfl⟩)
    · rfl
    · rfl

theorem upTo_map {α β : Type} (f : α → β) (max : Int) (l : List α) : (upTo max l).map f = upTo max (l.map f) := by
  unfold upTo
  split
  · rw [List.map_take]
  · rfl

theorem getOptimized_eq (libs : List Sharedlib) (max : Int) (t : GdbThread) (gs : List GdbFrame) (h : withLibs libs t.frames = .ok gs) :
    getOptimized libs max t =
      .ok { t with frames := upTo max (((pipeline gdbOps (nodes gs)).map Node.val).filter fun f => decide (Shown f)) } := by
  have hwf : WF (pipeline gdbOps (nodes gs)) := by
    obtain ⟨ks, hs, he⟩ := pipeline_kept gdbOps (nodes gs)
    rw [he]
    have hk : WF ks := (nodes_wf gs).sublist (hs.trans ((keep_sublist _ _).trans (afterLast_suffix _ _).sublist))
    unfold WF at hk ⊢
    rw [List.map_map]
    exact hk
  have hwf' : WF ((pipeline gdbOps (nodes gs)).filter fun n => decide (n.val.functionName ≠ some c!"main")) :=
    hwf.sublist List.filter_sublist
  unfold getOptimized
  rw [h, Out.bind_ok, normalizeGdb_eq _ (nodes_wf _), Out.bind_ok]
  dsimp only
  rw [C62_main _ hwf]
  have h2 := removeUnnamed_eq _ [] hwf'
  rw [List.nil_append, List.nil_append] at h2
  rw [h2, limit_eq, Out.bind_ok, upTo_map, List.filter_filter, List.filter_map]
  congr 5
  funext n
  show _ = decide (Shown n.val)
  rw [Bool.eq_iff_iff]
  simp only [Bool.and_eq_true, decide_eq_true_iff]
  unfold Shown
  cases n.val.functionName with
  | none => simp
  | some f => simp

/-- C77: the optimized thread has exactly the frames that are left by normalization and that have a known function other than
`main`, up to the limit. -/
theorem C77_optimized (libs : List Sharedlib) (max : Int) (t : GdbThread) (h : ∀ l ∈ libs, l.soname ≠ none) :
    ∃ named n, List.Forall₂ SameButLibrary t.frames named ∧ normalizeThread { t with frames := named } = .ok n ∧
      getOptimized libs max t = .ok { t with frames := upTo max (n.frames.filter fun f => decide (Shown f)) } := by
  obtain ⟨gs, h1, h2⟩ := withLibs_ok libs t.frames h
  exact ⟨gs, _, h2, normalizeThread_eq _, getOptimized_eq libs max t gs h1⟩

/-- C77: what a user can rely on: at most as many frames as wanted, each of them a frame of the thread, in the same order, with
nothing changed but the names of function and library, and with a function that is known and not `main`. -/
theorem C77_frames (libs : List Sharedlib) (max : Int) (t : GdbThread) (h : ∀ l ∈ libs, l.soname ≠ none) :
    ∃ out ks, getOptimized libs max t = .ok out ∧ out.number = t.number ∧ out.tid = t.tid ∧
      (0 < max → out.frames.length ≤ max.toNat) ∧ (∀ f ∈ out.frames, Shown f) ∧ ks.Sublist t.frames ∧
      List.Forall₂ (fun k f => ∃ k', SameButLibrary k k' ∧ GdbRenamed k' f) ks out.frames := by
  obtain ⟨gs, h1, h2⟩ := withLibs_ok libs t.frames h
  have he := getOptimized_eq libs max t gs h1
  obtain ⟨ks, hs, hk⟩ := pipeline_kept gdbOps (nodes gs)
  have hsub : (upTo max (((pipeline gdbOps (nodes gs)).map Node.val).filter fun f => decide (Shown f))).Sublist
      ((pipeline gdbOps (nodes gs)).map Node.val) := by
    refine List.Sublist.trans ?_ (List.filter_sublist (p := fun f => decide (Shown f)))
    unfold upTo
    split
    · exact List.take_sublist _ _
    · exact List.Sublist.refl _
  have hks : (ks.map Node.val).Sublist gs := by
    have := (hs.trans ((keep_sublist gdbOps (nodes gs)).trans (afterLast_suffix _ _).sublist)).map Node.val
    rwa [nodes_val] at this
  have hren : List.Forall₂ GdbRenamed (ks.map Node.val) ((pipeline gdbOps (nodes gs)).map Node.val) := by
    rw [hk, List.map_map, List.forall₂_map_left_iff, List.forall₂_map_right_iff, List.forall₂_same]
    exact fun k _ => gdb_renamed k.val
  obtain ⟨a, ha, ha2⟩ := forall₂_sublist hren hsub
  obtain ⟨b, hb, hb2⟩ := forall₂_sublist h2 (ha.trans hks)
  refine ⟨_, b, he, rfl, rfl, ?_, ?_, hb, ?_⟩
  · intro hm
    dsimp only
    unfold upTo
    rw [if_pos hm, List.length_take]
    omega
  · intro f hf
    dsimp only at hf
    have : f ∈ ((pipeline gdbOps (nodes gs)).map Node.val).filter fun f => decide (Shown f) := by
      unfold upTo at hf
      split at hf
      · exact List.mem_of_mem_take hf
      · exact hf
    simpa using (List.mem_filter.1 this).2
  · exact forall₂_comp hb2 ha2

/-! ## The short text -/

/-- A frame without the name of its library. -/
def erase (f : GdbFrame) : GdbFrame := { f with libraryName := none }

theorem rename_erase (f : GdbFrame) : gdbOps.rename (erase f) = erase (gdbOps.rename f) := by
  show renameGdb (normalizeGdbFrame (erase f)) = erase (renameGdb (normalizeGdbFrame f))
  have h1 : normalizeGdbFrame (erase f) = erase (normalizeGdbFrame f) := by
    unfold normalizeGdbFrame
    show (if f.sourceFile.isSome = true then _ else _) = _
    split <;> rfl
  rw [h1]
  unfold renameGdb
  show (match findNewName (normalizeGdbFrame f).functionName (normalizeGdbFrame f).sourceFile with | some n => _ | none => _) = _
  cases findNewName (normalizeGdbFrame f).functionName (normalizeGdbFrame f).sourceFile <;> rfl

theorem dropFirstIf_map {α β : Type} (f : α → β) (p : β → Bool) (l : List α) :
    dropFirstIf p (l.map f) = (dropFirstIf (fun a => p (f a)) l).map f := by
  cases l with
  | nil => rfl
  | cons a l => unfold dropFirstIf; simp only [List.map_cons]; split <;> rfl

theorem dropLastIf_map {α β : Type} (f : α → β) (p : β → Bool) (l : List α) :
    dropLastIf p (l.map f) = (dropLastIf (fun a => p (f a)) l).map f := by
  unfold dropLastIf
  rw [← List.map_reverse, dropFirstIf_map, List.map_reverse]

theorem pipeline_erase (t : List (Node GdbFrame)) :
    pipeline gdbOps (t.map (lift erase)) = (pipeline gdbOps t).map (lift erase) := by
  have hk : keep gdbOps (t.map (lift erase)) = (keep gdbOps t).map (lift erase) := by
    unfold keep
    rw [afterLast_map, afterLast_map, List.filter_map]
    congr 1
    have e1 : ∀ n : Node GdbFrame, gdbOps.rename (lift erase n).val = erase (gdbOps.rename n.val) := fun n => rename_erase n.val
    have e2 : (fun n : Node GdbFrame => gdbOps.wa (gdbOps.rename (lift erase n).val)) = fun n => gdbOps.wa (gdbOps.rename n.val) := by
      funext n; rw [e1]; rfl
    have e3 : ((fun n : Node GdbFrame => !gdbOps.rem (gdbOps.rename n.val)) ∘ lift erase) = fun n => !gdbOps.rem (gdbOps.rename n.val) := by
      funext n; show (!gdbOps.rem (gdbOps.rename (lift erase n).val)) = _; rw [e1]; rfl
    rw [e2, e3]
    rfl
  unfold pipeline
  rw [hk]
  have hm : ((keep gdbOps t).map (lift erase)).map (lift fun f => gdbOps.post (gdbOps.rename f)) =
      ((keep gdbOps t).map (lift fun f => gdbOps.post (gdbOps.rename f))).map (lift erase) := by
    rw [List.map_map, List.map_map]
    refine List.map_congr_left fun n _ => ?_
    show lift _ (lift _ n) = lift _ (lift _ n)
    unfold lift
    dsimp only
    congr 1
    exact rename_erase n.val
  rw [hm, dropFirstIf_map, dropLastIf_map]
  exact (List.map_destutter (f := lift erase) (R := fun a b : Node GdbFrame => gdbOps.same a.val b.val = false)
    (R₂ := fun a b : Node GdbFrame => gdbOps.same a.val b.val = false) fun a _ b _ => Iff.rfl).symm

theorem nodes_map {α β : Type} (f : α → β) (l : List α) : nodes (l.map f) = (nodes l).map fun n => ⟨n.id, f n.val⟩ := by
  unfold nodes
  rw [List.zipIdx_map, List.map_map, List.map_map]
  rfl

theorem gdbFrames_erase (v : Bool) (l : List GdbFrame) : gdbFrames v (l.map erase) = gdbFrames v l := by
  induction l with
  | nil => rfl
  | cons f l ih => rw [List.map_cons, gdbFrames, ih]; rfl

theorem same_erase {l m : List GdbFrame} (h : List.Forall₂ SameButLibrary l m) : l.map erase = m.map erase := by
  induction h with
  | nil => rfl
  | cons hab h ih =>
    rw [List.map_cons, List.map_cons, ih, hab]
    rfl

theorem optimized_erase (gs : List GdbFrame) (max : Int) :
    upTo max (((pipeline gdbOps (nodes (gs.map erase))).map Node.val).filter fun f => decide (Shown f)) =
      (upTo max (((pipeline gdbOps (nodes gs)).map Node.val).filter fun f => decide (Shown f))).map erase := by
  have h1 : nodes (gs.map erase) = (nodes gs).map (lift erase) := nodes_map erase gs
  rw [h1, pipeline_erase, upTo_map, List.map_map]
  have h2 : (Node.val ∘ lift erase : Node GdbFrame → GdbFrame) = erase ∘ Node.val := rfl
  rw [h2, ← List.map_map, List.filter_map]
  rfl

/-- C77: the short text does not depend on the shared libraries. -/
theorem C77_libs (s : GdbTrace) (max : Int) (libs : List Sharedlib) (h : ∀ l ∈ s.libs, l.soname ≠ none) (h' : ∀ l ∈ libs, l.soname ≠ none) :
    gdbText { s with libs } max = gdbText s max := by
  unfold gdbText
  have hc : findCrashThread { s with libs } = findCrashThread s := rfl
  rw [hc]
  cases findCrashThread s with
  | none => rfl
  | some i =>
    dsimp only
    generalize s.threads.getD i {} = t
    obtain ⟨a, a1, a2⟩ := withLibs_ok s.libs t.frames h
    obtain ⟨b, b1, b2⟩ := withLibs_ok libs t.frames h'
    rw [getOptimized_eq _ _ _ a a1, getOptimized_eq _ _ _ b b1, Out.bind_ok, Out.bind_ok]
    have he : a.map erase = b.map erase := (same_erase a2).symm.trans (same_erase b2)
    have hx := optimized_erase a max
    rw [he, optimized_erase b max] at hx
    generalize upTo max (((pipeline gdbOps (nodes a)).map Node.val).filter fun f => decide (Shown f)) = x at hx
    generalize upTo max (((pipeline gdbOps (nodes b)).map Node.val).filter fun f => decide (Shown f)) = y at hx
    have hl : y.length = x.length := by have := congrArg List.length hx; simpa using this
    have hg : gdbFrames true y = gdbFrames true x := by rw [← gdbFrames_erase, hx, gdbFrames_erase]
    unfold gdbThread
    dsimp only
    rw [hl, hg]

/-- C77: without a crash thread there is no text; otherwise it is the text of the optimized crash thread. -/
theorem C77_text (s : GdbTrace) (max : Int) (h : ∀ l ∈ s.libs, l.soname ≠ none) :
    (findCrashThread s = none → gdbText s max = .ok none) ∧
    ∀ i t, findCrashThread s = some i → s.threads[i]? = some t → ∃ out, getOptimized s.libs max t = .ok out ∧
      gdbText s max = .ok (some (c!"Thread no. " ++ natDec t.number ++ c!" (" ++ natDec out.frames.length ++ c!" frames)\n" ++
        (out.frames.map fun f => gdbFrame true f ++ c!"\n").flatten)) := by
  refine ⟨fun hn => by unfold gdbText; rw [hn], fun i t hi ht => ?_⟩
  obtain ⟨a, a1, a2⟩ := withLibs_ok s.libs t.frames h
  refine ⟨_, getOptimized_eq _ max t a a1, ?_⟩
  unfold gdbText
  rw [hi]
  dsimp only
  rw [List.getD_eq_getElem?_getD, ht, Option.getD_some, getOptimized_eq _ max t a a1, Out.bind_ok]
  have hf : ∀ l : List GdbFrame, gdbFrames true l = (l.map fun f => gdbFrame true f ++ c!"\n").flatten := by
    intro l
    induction l with
    | nil => rfl
    | cons f l ih => rw [gdbFrames, ih]; simp
  unfold gdbThread
  rw [if_pos rfl, hf]

/-- C77: what is printed for a frame of an optimized thread, if it has a source position and if it has none. -/
theorem C77_frame (f : GdbFrame) (name : Str) (hn : f.functionName = some name) (ht : f.functionType = none)
    (hs : f.signalHandlerCalled = false) :
    (f.sourceFile = none → gdbFrame true f = c!" #" ++ natDec f.number ++ c!" " ++ name) ∧
    (∀ file, f.sourceFile = some file → f.sourceLine ≠ 2 ^ 32 - 1 →
      gdbFrame true f = c!" #" ++ natDec f.number ++ c!" " ++ name ++ c!" at " ++ file ++ c!":" ++ natDec f.sourceLine) := by
  unfold gdbFrame
  rw [hn, ht, hs]
  refine ⟨fun h => by simp [h], fun file h hl => ?_⟩
  rw [h]
  dsimp only
  have hl' : f.sourceLine ≠ 4294967295 := hl
  simp [hl']

/-- C77 fails if the thread has been given a library without a name. -/
theorem C77_not_unnamed : gdbText { libs := [{ lo := 1, hi := 2 }], threads := [{ frames := [{ address := 1 }] }] } 0 = .ub := by
  decide +kernel

example : gdbText { libs := [{ lo := 1, hi := 2, soname := some c!"/lib/libc.so.6" }], threads := [{ number := 3, frames :=
      [{ number := 0, functionName := some c!"raise", sourceFile := some c!"raise.c" },
       { number := 1, functionName := some c!"f", sourceFile := some c!"a.c", sourceLine := 7, address := 1 },
       { number := 2, signalHandlerCalled := true },
       { number := 3, functionName := some c!"g" },
       { number := 4, functionName := some c!"h" },
       { number := 5, functionName := some c!"main" }] }] } 2 =
    .ok (some c!"Thread no. 3 (2 frames)\n #1 f at a.c:7\n #3 g\n") := by decide +kernel

/-! ## C78: the crash frame -/

/-- C78: the crash frame is the first frame of the normalized crash thread. -/
theorem C78_frame (s : GdbTrace) :
    (findCrashThread s = none → crashFrame s = .ok none) ∧
    ∀ i t, findCrashThread s = some i → s.threads[i]? = some t →
      ∃ n, normalizeThread t = .ok n ∧ crashFrame s = .ok n.frames.head? := by
  refine ⟨fun h => by unfold crashFrame; rw [h], fun i t hi ht => ⟨_, normalizeThread_eq t, ?_⟩⟩
  unfold crashFrame
  rw [hi, normalizeTrace_eq]
  dsimp only
  rw [Out.bind_ok]
  have hts : (rememberCrashTid s).threads = s.threads := by
    unfold rememberCrashTid
    split
    · split <;> rfl
    · rfl
  have : (normTrace (rememberCrashTid s)).threads[i]? = some (normThread t) := by
    show ((rememberCrashTid s).threads.map normThread)[i]? = _
    rw [hts, List.getElem?_map, ht]
    rfl
  rw [List.getD_eq_getElem?_getD, this]
  rfl

/-- C78: the crash frame is a frame of the crash thread, with nothing changed but the name of its function; the frames above it
are none that normalization keeps, and it is not a frame that ends the process or that is redundant. -/
theorem C78_is_frame (s : GdbTrace) (i : Nat) (t : GdbThread) (f : GdbFrame) (hi : findCrashThread s = some i) (ht : s.threads[i]? = some t)
    (h : crashFrame s = .ok (some f)) :
    (∃ k ∈ t.frames, GdbRenamed k f) ∧ ¬ Listed removableTable f.functionName f.sourceFile ∧
      ¬ Listed removableWithAboveTable f.functionName f.sourceFile ∧ ¬ Listed gdbExitTable f.functionName f.sourceFile := by
  obtain ⟨n, h1, h2⟩ := (C78_frame s).2 i t hi ht
  rw [h] at h2
  have hh : n.frames.head? = some f := (Out.ok.inj h2).symm
  unfold normalizeThread at h1
  obtain ⟨r, ks, e1, e2, e3⟩ := C14_gdb _ (nodes_wf t.frames)
  obtain ⟨r', e1', -, e5, -⟩ := C15_gdb _ (nodes_wf t.frames)
  rw [e1] at e1'
  cases e1'
  rw [e1, Out.bind_ok] at h1
  cases h1
  cases r with
  | nil => cases hh
  | cons m r =>
    cases hh
    cases e3 with
    | @cons k _ ks _ hk _ =>
      refine ⟨⟨k.val, ?_, hk.2⟩, e5 m (by simp)⟩
      have := e2.subset (List.mem_cons_self)
      rw [← nodes_val t.frames]
      exact List.mem_map_of_mem this

/-- C78: there may be a crash thread, but no crash frame: all its frames can be redundant. -/
theorem C78_not_found : findCrashThread { threads := [{ frames := [{ functionName := some c!"raise", sourceFile := some c!"raise.c" }] }] } =
      some 0 ∧
    crashFrame { threads := [{ frames := [{ functionName := some c!"raise", sourceFile := some c!"raise.c" }] }] } = .ok none := by
  decide +kernel

example : crashFrame { threads := [{ frames := [{ functionName := some c!"__GI_raise", sourceFile := some c!"raise.c" },
      { functionName := some c!"__GI_abort", sourceFile := some c!"abort.c" }, { functionName := some c!"f" }] }] } =
    .ok (some { functionName := some c!"f" }) := by decide +kernel

end Satyr.Short
