import Verif.Generic.Cmp
import Verif.Normalize.Pipeline
import Verif.Koops.Normalize
import Verif.Crash.Lemmas
import Verif.Hash.Bt
import Verif.Metrics.Natural
/-!
# What identifies a crash survives JSON (C135)
-/
namespace Satyr.Generic
open Satyr.CStr Satyr.Frames Satyr.Normalize Satyr.Threads Satyr.Report Satyr.Hash

/-! ## Specification -/

/-- `r` is what is read with `sr_stacktrace_from_json_text` from the text that `sr_stacktrace_to_json` gives for `t`. -/
def Sent (t r : Stacktrace) : Prop := ∃ s, toJson t = .ok (some s) ∧ fromJsonText (typeOf t).code s = .ok (some r)

/-- A number of 64 bits that is not changed by JSON: it is the mark of an unknown number or less than 2^63. -/
def Fits (n : Nat) : Prop := n = Json.Core.ulongMax ∨ n < 2 ^ 63

/-- The numbers that `sr_thread_get_duphash` takes from the frame are not changed by JSON. -/
def DupFits : Frame → Prop
  | .core f _ => match f.buildId, f.functionName, f.fingerprint with
    | some _, _, _ => Fits f.buildIdOffset
    | none, some _, _ => True
    | none, none, some _ => Fits f.buildIdOffset
    | none, none, none => Fits f.address
  | .koops f _ => f.functionName = none → f.address < 2 ^ 63
  | .python f _ => f.fileLine < 2 ^ 31
  | .java f _ => f.name = none → f.fileLine < 2 ^ 31 ∧ (f.fileName = none → f.fileLine = 0)
  | .gdb _ _ => True
  | .ruby f _ => f.fileLine < 2 ^ 31
  | .js f _ => f.fileLine < 2 ^ 31

/-- What `sr_stacktrace_get_bthash` takes from the frame is not changed by JSON. -/
def BtFits : Frame → Prop
  | .core f _ => Fits f.address ∧ Fits f.buildIdOffset
  | .koops f _ => f.address < 2 ^ 63 ∧ f.functionOffset < 2 ^ 63 ∧ f.functionLength < 2 ^ 63 ∧ f.fromAddress < 2 ^ 63 ∧
      f.fromFunctionOffset < 2 ^ 63 ∧ f.fromFunctionLength < 2 ^ 63
  | .python f _ => f.fileLine < 2 ^ 31 ∧ (f.specialFile = true → f.fileName ≠ none) ∧
      (f.specialFunction = true → f.functionName ≠ none)
  | .java f _ => f.fileLine < 2 ^ 31 ∧ (f.fileName = none → f.fileLine = 0)
  | .gdb _ _ => True
  | .ruby f _ => f.fileLine < 2 ^ 31 ∧ f.blockLevel < 2 ^ 31 ∧ f.rescueLevel < 2 ^ 31 ∧
      (f.specialFunction = true → f.functionName ≠ none)
  | .js f _ => f.fileLine < 2 ^ 31

/-- What `sr_frame_append_to_str` takes from the frame is not changed by JSON. -/
def ShortFits : Frame → Prop
  | .core f _ => f.functionName = none → f.buildId ≠ none → Fits f.buildIdOffset
  | .koops _ _ => True
  | .python f _ => (f.fileName ≠ none → f.fileLine < 2 ^ 31) ∧ (f.specialFunction = true → f.functionName ≠ none)
  | .java f _ => f.isException = false → f.fileLine < 2 ^ 31 ∧ (f.fileName = none → f.fileLine = 0)
  | .gdb _ _ => True
  | .ruby f _ => (f.fileName ≠ none → f.fileLine < 2 ^ 31) ∧ f.blockLevel < 2 ^ 31 ∧ f.rescueLevel < 2 ^ 31 ∧
      (f.specialFunction = true → f.functionName ≠ none)
  | .js f _ => f.fileName ≠ none → f.fileLine < 2 ^ 31 ∧ f.lineColumn < 2 ^ 31

/-- What the comparison for distances takes from the frame is not changed by JSON. -/
def DistFits : Frame → Prop
  | .core f _ => Fits f.buildIdOffset
  | .koops _ _ | .java _ _ | .gdb _ _ => True
  | .python f _ => (f.specialFile = true → f.fileName ≠ none) ∧ (f.specialFunction = true → f.functionName ≠ none)
  | .ruby f _ => f.specialFunction = true → f.functionName ≠ none
  | .js f _ => f.fileLine < 2 ^ 31

/-- The crash thread of a core stack trace is known and has frames, or there is only one thread, or it is not known and the first
thread has no frames or a frame of a function that ends the program. -/
def CrashFits : Stacktrace → Prop
  | .core t => t.threads.length = 1 ∨
    match t.crashThread with
    | some k => ∀ th, t.threads[k]? = some th → th.frames ≠ []
    | none => ∀ th, t.threads[0]? = some th → th.frames = [] ∨ ∃ f ∈ th.frames, coreIsExit f = true
  | _ => True

/-- `sr_distance` for two threads: the frames are compared with `sr_frame_cmp_distance`. -/
def sameFrame (f g : Frame) : Bool := decide (f.cmpDistance g = .ok 0)

/-- `sr_distance` (lib/distance.c:274-296) for threads of any type. -/
def threadDistance (ty : Option Distances.DistType) (t u : Thread) : Out Rat :=
  Metrics.distance sameFrame ty (⟨t.type, allFrames t⟩ : Metrics.Thread ReportType Frame) ⟨u.type, allFrames u⟩

/-! ## What becomes of threads and frames -/

/-- What becomes of a frame. -/
def keepFr : Frame → Frame
  | .core f l => .core (Json.Core.keepFrame f) (l.map Json.Core.keepFrame)
  | .python f l => .python (Json.Python.keepFrame f) (l.map Json.Python.keepFrame)
  | .koops f l => .koops (Json.Koops.keepFrame f) (l.map Json.Koops.keepFrame)
  | .java f l => .java (Json.Java.keepFrame f) (l.map Json.Java.keepFrame)
  | .gdb f l => .gdb f l
  | .ruby f l => .ruby (Json.Ruby.keepFrame f) (l.map Json.Ruby.keepFrame)
  | .js f l => .js (Json.Js.keepFrame f) (l.map Json.Js.keepFrame)

/-- What becomes of a thread. -/
def keepTh : Thread → Thread
  | .core t l => .core (Json.Core.keepThread t) (l.map Json.Core.keepThread)
  | .python t => .python (Json.Python.keep t)
  | .koops t => .koops (Json.Koops.keep t)
  | .java t l => .java (Json.Java.keepThread t) (l.map Json.Java.keepThread)
  | .gdb t l => .gdb t l
  | .ruby t => .ruby (Json.Ruby.keep t)
  | .js t => .js (Json.Js.keep t)

theorem tails_map {T : Type} (mk : T → List T → Thread) (k : T → T) (kt : Thread → Thread) (h : ∀ t l, kt (mk t l) = mk (k t) (l.map k)) :
    ∀ l, tails mk (l.map k) = (tails mk l).map kt
  | [] => rfl
  | t :: l => by simp only [List.map_cons, tails, h, tails_map mk k kt h l]

theorem frameTails_map {F : Type} (mk : F → List F → Frame) (k : F → F) (kt : Frame → Frame) (h : ∀ t l, kt (mk t l) = mk (k t) (l.map k)) :
    ∀ l, frameTails mk (l.map k) = (frameTails mk l).map kt
  | [] => rfl
  | t :: l => by simp only [List.map_cons, frameTails, h, frameTails_map mk k kt h l]

theorem allThreads_keep (t : Stacktrace) : allThreads (keepTrace t) = (allThreads t).map keepTh := by
  cases t with
  | core t => exact tails_map .core _ keepTh (fun _ _ => rfl) _
  | java t => exact tails_map .java _ keepTh (fun _ _ => rfl) _
  | gdb t =>
    have := tails_map .gdb id keepTh (fun t l => by simp [keepTh]) t.threads
    rw [List.map_id] at this
    exact this
  | _ => rfl

theorem allFrames_keep (t : Thread) : allFrames (keepTh t) = (allFrames t).map keepFr := by
  cases t with
  | core t l => exact frameTails_map .core _ keepFr (fun _ _ => rfl) _
  | java t l => exact frameTails_map .java _ keepFr (fun _ _ => rfl) _
  | python t => exact frameTails_map .python _ keepFr (fun _ _ => rfl) _
  | koops t => exact frameTails_map .koops _ keepFr (fun _ _ => rfl) _
  | ruby t => exact frameTails_map .ruby _ keepFr (fun _ _ => rfl) _
  | js t => exact frameTails_map .js _ keepFr (fun _ _ => rfl) _
  | gdb t l =>
    have := frameTails_map .gdb id keepFr (fun t l => by simp [keepFr]) t.frames
    rw [List.map_id] at this
    exact this

theorem sent_keep {t r : Stacktrace} (h : ReadBack t) (hr : Sent t r) : r = keepTrace t := by
  obtain ⟨s, h1, h2⟩ := hr
  obtain ⟨s', h1', h2'⟩ := (C114_json t).1 h
  rw [h1] at h1'
  cases h1'
  rw [h2] at h2'
  cases h2'
  rfl

/-- A statement for all frames, without the frames after each. -/
theorem each_frame {F : Type} {mk : F → List F → Frame} {P : Frame → Prop} {Q : F → Prop} (hq : ∀ f l, P (mk f l) → Q f) :
    ∀ {l : List F}, (∀ f ∈ frameTails mk l, P f) → ∀ f ∈ l, Q f
  | [], _, f, hf => by cases hf
  | g :: l, h, f, hf => by
    simp only [frameTails, List.mem_cons, forall_eq_or_imp] at h
    rcases List.mem_cons.mp hf with rfl | hf
    · exact hq _ _ h.1
    · exact each_frame hq h.2 f hf

/-! ## Numbers -/

theorem core_keep64_of {n : Nat} (h : Fits n) : Json.Core.keep64 n = n := by
  unfold Json.Core.keep64
  split
  · rfl
  · rcases h with h | h
    · contradiction
    · omega

theorem koops_keep64_of {n : Nat} (h : n < 2 ^ 63) : Json.Koops.keep64 n = n := by unfold Json.Koops.keep64; omega

theorem core_keep64_zero (n : Nat) : Json.Core.keep64 n = 0 ↔ n = 0 := by
  unfold Json.Core.keep64
  split
  · rfl
  · omega

/-! ## The hash for duplicates -/

theorem nodes_map {F : Type} (k : F → F) (l : List F) : Crash.nodes (l.map k) = (Crash.nodes l).map (lift k) := by
  unfold Crash.nodes
  rw [List.zipIdx_map, List.map_map, List.map_map]
  rfl

theorem dupLoop_lift {F : Type} (text : F → Str) (k : F → F) : ∀ (l : List (Node F)) (n : Int) (buf : Str),
    (∀ f ∈ l, text (k f.val) = text f.val) → Hash.dupLoop text n (l.map (lift k)) buf = Hash.dupLoop text n l buf
  | [], _, _, _ => rfl
  | a :: l, n, buf, h => by
    simp only [List.mem_cons, forall_eq_or_imp] at h
    simp only [List.map_cons, Hash.dupLoop, lift_val, h.1]
    split
    · exact dupLoop_lift text k l _ _ h.2
    · rfl

theorem dropFirstIf_map {A B : Type} (p : B → Bool) (f : A → B) : ∀ l : List A,
    dropFirstIf p (l.map f) = (dropFirstIf (fun a => p (f a)) l).map f
  | [] => rfl
  | a :: l => by simp only [List.map_cons, dropFirstIf]; split <;> simp

theorem dropLastIf_map {A B : Type} (p : B → Bool) (f : A → B) (l : List A) :
    dropLastIf p (l.map f) = (dropLastIf (fun a => p (f a)) l).map f := by
  unfold dropLastIf
  rw [← List.map_reverse, dropFirstIf_map, List.map_reverse]

/-- A change of frames that the normalization does not notice. -/
structure Unnoticed {F : Type} (o : Ops F) (k : F → F) : Prop where
  exit : ∀ f, o.exit (k f) = o.exit f
  rename : ∀ f, o.rename (k f) = k (o.rename f)
  rem : ∀ f, o.rem (k f) = o.rem f
  wa : ∀ f, o.wa (k f) = o.wa f
  post : ∀ f, o.post (k f) = k (o.post f)
  null : ∀ f, o.null (k f) = o.null f
  same : ∀ f g, o.same (k f) (k g) = o.same f g

theorem Unnoticed.keep {F : Type} {o : Ops F} {k : F → F} (h : Unnoticed o k) (t : List (Node F)) :
    Normalize.keep o (t.map (lift k)) = (Normalize.keep o t).map (lift k) := by
  unfold Normalize.keep
  rw [afterLast_map, afterLast_map, List.filter_map]
  simp only [lift_val, h.exit, h.rename, h.rem, h.wa, Function.comp_def]

theorem Unnoticed.pipeline {F : Type} {o : Ops F} {k : F → F} (h : Unnoticed o k) (t : List (Node F)) :
    pipeline o (t.map (lift k)) = (pipeline o t).map (lift k) := by
  unfold Normalize.pipeline
  rw [h.keep, List.map_map]
  have e : (lift (fun f => o.post (o.rename f)) ∘ lift k : Node F → Node F) = lift k ∘ lift fun f => o.post (o.rename f) := by
    funext n
    simp only [Function.comp, lift, h.rename, h.post]
  rw [e, ← List.map_map, dropFirstIf_map]
  simp only [lift_val, h.null]
  rw [dropLastIf_map]
  simp only [lift_val, h.null]
  refine (List.map_destutter (R := fun a b : Node F => o.same a.val b.val = false) fun a _ b _ => ?_).symm
  simp only [lift_val, h.same]

/-- The values of what remains are changed values of what was there. -/
theorem pipeline_val {F : Type} (o : Ops F) {t : List (Node F)} {n : Node F} (h : n ∈ pipeline o t) :
    ∃ m ∈ t, n.val = o.post (o.rename m.val) := by
  unfold Normalize.pipeline at h
  have h1 := (List.destutter_sublist _ _).subset h
  have h2 : n ∈ (Normalize.keep o t).map (lift fun f => o.post (o.rename f)) := by
    refine (dropFirstIf_suffix (fun n => o.null n.val) _).subset ?_
    · have := h1
      unfold dropLastIf at this
      rw [List.mem_reverse] at this
      have := (dropFirstIf_suffix _ _).subset this
      rwa [List.mem_reverse] at this
  obtain ⟨m, hm, rfl⟩ := List.mem_map.mp h2
  exact ⟨m, ((keep_sublist o t).trans (afterLast_suffix _ _).sublist).subset hm, rfl⟩

theorem core_unnoticed : Unnoticed coreOps Json.Core.keepFrame where
  exit f := rfl
  rename f := by
    simp only [coreOps, renameCore, stripCore, Json.Core.keepFrame]
    cases findNewName (stripPrefixes f.functionName) f.fileName <;> rfl
  rem f := rfl
  wa f := rfl
  post f := rfl
  null f := by
    simp only [coreOps, coreIsNull, Json.Core.keepFrame]
    congr 1
    rw [Bool.eq_iff_iff]
    simp [core_keep64_zero]
  same f g := rfl

theorem removeFuncPrefix_none {n : Option Str} {p : Str} {k : Nat} : removeFuncPrefix n p k = none ↔ n = none := by
  cases n with
  | none => exact ⟨fun _ => rfl, fun _ => rfl⟩
  | some n =>
    simp only [removeFuncPrefix, reduceCtorEq, iff_false]
    split <;> simp

theorem findNewName_none {n f : Option Str} (h : n = none) : findNewName n f = none := by
  subst h
  unfold findNewName
  rw [List.find?_eq_none]
  intro x _
  simp [callMatch]

/-- The text of a core frame in the hash. -/
def CoreDup (f : CoreFrame) : Prop := DupFits (.core f [])

theorem coreDup_keep {f : CoreFrame} (h : CoreDup f) : coreDup (Json.Core.keepFrame f) = coreDup f := by
  unfold CoreDup DupFits at h
  unfold coreDup Json.Core.keepFrame
  dsimp only at h ⊢
  cases hb : f.buildId with
  | some b => rw [hb] at h; simp only [core_keep64_of h]
  | none =>
    cases hn : f.functionName with
    | some n => rfl
    | none =>
      cases hp : f.fingerprint with
      | some p => rw [hb, hn, hp] at h; simp only [core_keep64_of h]
      | none => rw [hb, hn, hp] at h; simp only [core_keep64_of h]

theorem core_post_dup {f : CoreFrame} (h : CoreDup f) : CoreDup (coreOps.post (coreOps.rename f)) := by
  have key : ∃ n, (coreOps.post (coreOps.rename f)) = { f with functionName := n, fileName := f.fileName.map anonymizePath } ∧
      (n = none ↔ f.functionName = none) := by
    simp only [coreOps, renameCore, stripCore]
    have hs : stripPrefixes f.functionName = none ↔ f.functionName = none := by
      simp only [stripPrefixes, removeFuncPrefix_none]
    cases hf : findNewName (stripPrefixes f.functionName) f.fileName with
    | none => exact ⟨_, rfl, hs⟩
    | some n =>
      refine ⟨some n, rfl, ?_⟩
      simp only [reduceCtorEq, false_iff]
      intro e
      rw [findNewName_none (hs.2 e)] at hf
      cases hf
  obtain ⟨n, e, hn⟩ := key
  rw [e]
  unfold CoreDup DupFits at h ⊢
  dsimp only at h ⊢
  cases hb : f.buildId with
  | some b => rw [hb] at h; exact h
  | none =>
    rw [hb] at h
    cases n with
    | some n => trivial
    | none => rw [hn.1 rfl] at h; exact h

theorem undotted_keep (n : Node KoopsFrame) : Koops.undotted (lift Json.Koops.keepFrame n) = lift Json.Koops.keepFrame (Koops.undotted n) := rfl

theorem koops_keep (t : List (Node KoopsFrame)) :
    ((t.map (lift Json.Koops.keepFrame)).map Koops.undotted).filter (fun n => decide (Koops.Kept n)) =
      ((t.map Koops.undotted).filter fun n => decide (Koops.Kept n)).map (lift Json.Koops.keepFrame) := by
  rw [List.map_map, show Koops.undotted ∘ lift Json.Koops.keepFrame = lift Json.Koops.keepFrame ∘ Koops.undotted from rfl,
    ← List.map_map, List.filter_map]
  rfl

theorem koopsDup_keep {fl : DupFlags} {f : KoopsFrame} (h : f.functionName = none → f.address < 2 ^ 63) :
    koopsDup fl (Json.Koops.keepFrame f) = koopsDup fl f := by
  unfold koopsDup
  simp only [Json.Koops.keepFrame]
  cases hf : f.functionName with
  | some n => rfl
  | none => simp only [koops_keep64_of (h hf)]

theorem duphashOf_congr {sha1 : Str → Str} {t u : Hash.Thread} {n : Int} {pre : Option Str} {fl : DupFlags}
    (h : ∀ n buf, t.dupLoop fl n buf = u.dupLoop fl n buf) : duphashOf sha1 t n pre fl = duphashOf sha1 u n pre fl := by
  unfold duphashOf
  simp only [h]

theorem duphash_keep (sha1 : Str → Str) (t : Thread) (h : ∀ f ∈ allFrames t, DupFits f) (n : Int) (pre : Option Str) (fl : DupFlags) :
    (keepTh t).duphash sha1 n pre fl = t.duphash sha1 n pre fl := by
  rw [C114_duphash, C114_duphash]
  unfold Hash.duphash
  have pass : ∀ T : Hash.Thread, T.normalize = .ok T → (if fl.noNormalize then Out.ok T else T.normalize) = .ok T := by
    intro T e
    rw [e, ite_self]
  cases t with
  | core t l =>
    have hc : ∀ f ∈ t.frames, CoreDup f := each_frame (mk := .core) (fun f l h => h) h
    have e : toHash (keepTh (.core t l)) = .core ((Crash.nodes t.frames).map (lift Json.Core.keepFrame)) := by
      rw [← nodes_map]; rfl
    have hv : ∀ m ∈ Crash.nodes t.frames, CoreDup m.val := by
      intro m hm
      refine hc _ ?_
      rw [← nodes_val t.frames]
      exact List.mem_map_of_mem hm
    rw [e]
    split
    · exact duphashOf_congr fun n buf => dupLoop_lift coreDup _ _ n buf fun f hf => coreDup_keep (hv f hf)
    · simp only [Hash.Thread.normalize, toHash]
      have hw := Crash.nodes_wf t.frames
      have hw' : WF ((Crash.nodes t.frames).map (lift Json.Core.keepFrame)) := by rw [← nodes_map]; exact Crash.nodes_wf _
      rw [normalizeCore_eq _ hw, normalizeCore_eq _ hw', core_unnoticed.pipeline]
      refine duphashOf_congr fun n buf => dupLoop_lift coreDup _ _ n buf fun f hf => coreDup_keep ?_
      obtain ⟨m, hm, e⟩ := pipeline_val coreOps hf
      rw [e]
      exact core_post_dup (hv m hm)
  | koops t =>
    have hc : ∀ f ∈ t.frames, f.functionName = none → f.address < 2 ^ 63 := each_frame (mk := .koops) (fun f l h => h) h
    have e : toHash (keepTh (.koops t)) = .koops ((Crash.nodes t.frames).map (lift Json.Koops.keepFrame)) := by
      rw [← nodes_map]; rfl
    have hv : ∀ m ∈ Crash.nodes t.frames, m.val.functionName = none → m.val.address < 2 ^ 63 := by
      intro m hm
      refine hc _ ?_
      rw [← nodes_val t.frames]
      exact List.mem_map_of_mem hm
    rw [e]
    split
    · exact duphashOf_congr fun n buf => dupLoop_lift (koopsDup fl) _ _ n buf fun f hf => koopsDup_keep (hv f hf)
    · simp only [Hash.Thread.normalize, toHash]
      have hw := Crash.nodes_wf t.frames
      have hw' : WF ((Crash.nodes t.frames).map (lift Json.Koops.keepFrame)) := by rw [← nodes_map]; exact Crash.nodes_wf _
      rw [Koops.normalizeKoops_eq _ hw, Koops.normalizeKoops_eq _ hw', koops_keep]
      refine duphashOf_congr fun n buf => dupLoop_lift (koopsDup fl) _ _ n buf fun f hf => koopsDup_keep ?_
      obtain ⟨m, hm, rfl⟩ := List.mem_map.mp (List.mem_of_mem_filter hf)
      intro hn
      refine hv m hm ?_
      simpa [Koops.undotted] using hn
  | gdb t l => rfl
  | python t =>
    have hc : ∀ f ∈ t.frames, f.fileLine < 2 ^ 31 := each_frame (mk := .python) (fun f l h => h) h
    have e : toHash (keepTh (.python t)) = .python ((Crash.nodes t.frames).map (lift Json.Python.keepFrame)) := by
      rw [← nodes_map]; rfl
    rw [e, pass _ rfl, pass (toHash (.python t)) rfl]
    refine duphashOf_congr (t := .python _) (u := .python (Crash.nodes t.frames)) fun n buf => dupLoop_lift pythonDup _ _ n buf fun f hf => ?_
    have := hc f.val (by rw [← nodes_val t.frames]; exact List.mem_map_of_mem hf)
    simp only [pythonDup, Json.Python.keepFrame, Json.keep32_of this]
  | java t l =>
    have hc : ∀ f ∈ t.frames, f.name = none → f.fileLine < 2 ^ 31 ∧ (f.fileName = none → f.fileLine = 0) :=
      each_frame (mk := .java) (fun f l h => h) h
    have e : toHash (keepTh (.java t l)) = .java ((Crash.nodes t.frames).map (lift Json.Java.keepFrame)) := by
      rw [← nodes_map]; rfl
    rw [e, pass _ rfl, pass (toHash (.java t l)) rfl]
    refine duphashOf_congr (t := .java _) (u := .java (Crash.nodes t.frames)) fun n buf => dupLoop_lift javaDup _ _ n buf fun f hf => ?_
    have := hc f.val (by rw [← nodes_val t.frames]; exact List.mem_map_of_mem hf)
    unfold javaDup Json.Java.keepFrame
    dsimp only
    cases hn : f.val.name with
    | some n => rfl
    | none =>
      obtain ⟨h1, h2⟩ := this hn
      by_cases hf : f.val.fileName = none
      · simp only [hf, if_true, h2 hf]
      · simp only [hf, if_false, Json.keep32_of h1]
  | ruby t =>
    have hc : ∀ f ∈ t.frames, f.fileLine < 2 ^ 31 := each_frame (mk := .ruby) (fun f l h => h) h
    have e : toHash (keepTh (.ruby t)) = .ruby ((Crash.nodes t.frames).map (lift Json.Ruby.keepFrame)) := by
      rw [← nodes_map]; rfl
    rw [e, pass _ rfl, pass (toHash (.ruby t)) rfl]
    refine duphashOf_congr (t := .ruby _) (u := .ruby (Crash.nodes t.frames)) fun n buf => dupLoop_lift rubyDup _ _ n buf fun f hf => ?_
    have := hc f.val (by rw [← nodes_val t.frames]; exact List.mem_map_of_mem hf)
    simp only [rubyDup, Json.Ruby.keepFrame, Json.keep32_of this]
  | js t =>
    have hc : ∀ f ∈ t.frames, f.fileLine < 2 ^ 31 := each_frame (mk := .js) (fun f l h => h) h
    have e : toHash (keepTh (.js t)) = .js ((Crash.nodes t.frames).map (lift Json.Js.keepFrame)) := by
      rw [← nodes_map]; rfl
    rw [e, pass _ rfl, pass (toHash (.js t)) rfl]
    refine duphashOf_congr (t := .js _) (u := .js (Crash.nodes t.frames)) fun n buf => dupLoop_lift jsDup _ _ n buf fun f hf => ?_
    have := hc f.val (by rw [← nodes_val t.frames]; exact List.mem_map_of_mem hf)
    simp only [jsDup, Json.Js.keepFrame, Json.keep32_of this]

/-! ## The hash of the whole stack trace -/

theorem threadsBt_map {T F : Type} (head : T → Str) (frames : T → List F) (text : F → Str) (k : T → T) : ∀ l : List T,
    (∀ t ∈ l, head (k t) = head t ∧ (frames (k t)).flatMap text = (frames t).flatMap text) →
    threadsBt head frames text (l.map k) = threadsBt head frames text l
  | [], _ => rfl
  | [t], h => by
    obtain ⟨h1, h2⟩ := h t (by simp)
    simp only [List.map_cons, List.map_nil, threadsBt, h1, h2]
  | t :: u :: l, h => by
    obtain ⟨h1, h2⟩ := h t (by simp)
    have ih := threadsBt_map head frames text k (u :: l) fun t ht => h t (by simp [List.mem_cons.mp ht])
    simp only [List.map_cons] at ih
    simp only [List.map_cons, threadsBt, h1, h2, ih]

theorem flatMap_keep {F : Type} {text : F → Str} {k : F → F} {l : List F} (h : ∀ f ∈ l, text (k f) = text f) :
    (l.map k).flatMap text = l.flatMap text := by
  rw [List.flatMap_map]
  exact List.flatMap_congr h

theorem each_thread {T : Type} {mk : T → List T → Thread} {P : Thread → Prop} {Q : T → Prop} (hq : ∀ f l, P (mk f l) → Q f) :
    ∀ {l : List T}, (∀ f ∈ tails mk l, P f) → ∀ f ∈ l, Q f
  | [], _, f, hf => by cases hf
  | g :: l, h, f, hf => by
    simp only [tails, List.mem_cons, forall_eq_or_imp] at h
    rcases List.mem_cons.mp hf with rfl | hf
    · exact hq _ _ h.1
    · exact each_thread hq h.2 f hf

theorem java_line {f : JavaFrame} (h : f.fileLine < 2 ^ 31 ∧ (f.fileName = none → f.fileLine = 0)) :
    Json.Java.keepFrame f = f := by
  obtain ⟨h1, h2⟩ := h
  obtain ⟨a, b, c, d, e, i, j⟩ := f
  simp only [Json.Java.keepFrame, JavaFrame.mk.injEq, true_and, and_true]
  split
  · next hn => exact (h2 hn).symm
  · exact Json.keep32_of h1

theorem and_isSome {b : Bool} {o : Option Str} (h : b = true → o ≠ none) : (b && o.isSome) = b := by
  cases b <;> cases o <;> simp_all

theorem bthashText_keep (t : Stacktrace) (h : ∀ th ∈ allThreads t, ∀ f ∈ allFrames th, BtFits f) :
    bthashText (keepTrace t) = bthashText t := by
  cases t with
  | core t =>
    have hc : ∀ th ∈ t.threads, ∀ f ∈ th.frames, Fits f.address ∧ Fits f.buildIdOffset :=
      each_thread (mk := .core) (fun th l h => each_frame (mk := .core) (fun f l h => h) h) h
    simp only [bthashText, keepTrace, coreBt, Json.Core.keep]
    rw [threadsBt_map]
    intro th hth
    refine ⟨rfl, flatMap_keep fun f hf => ?_⟩
    obtain ⟨h1, h2⟩ := hc th hth f hf
    simp only [coreFrameBt, Json.Core.keepFrame, core_keep64_of h1, core_keep64_of h2]
  | python t =>
    have hc : ∀ f ∈ t.frames, BtFits (.python f []) := each_frame (mk := .python) (P := BtFits) (fun f l h => h) (h (.python t) (by simp [allThreads]))
    simp only [bthashText, keepTrace, pythonBt, Json.Python.keep, threadsBt]
    rw [flatMap_keep]
    intro f hf
    obtain ⟨h1, h2, h3⟩ := hc f hf
    simp only [pythonFrameBt, Json.Python.keepFrame, Json.keep32_of h1, and_isSome h2, and_isSome h3]
  | koops t =>
    have hc : ∀ f ∈ t.frames, BtFits (.koops f []) := each_frame (mk := .koops) (P := BtFits) (fun f l h => h) (h (.koops t) (by simp [allThreads]))
    simp only [bthashText, keepTrace, koopsBt, Json.Koops.keep, threadsBt]
    rw [flatMap_keep]
    intro f hf
    obtain ⟨h1, h2, h3, h4, h5, h6⟩ := hc f hf
    simp only [koopsFrameBt, Json.Koops.keepFrame, koops_keep64_of h1, koops_keep64_of h2, koops_keep64_of h3, koops_keep64_of h4,
      koops_keep64_of h5, koops_keep64_of h6]
  | java t =>
    have hc : ∀ th ∈ t.threads, ∀ f ∈ th.frames, f.fileLine < 2 ^ 31 ∧ (f.fileName = none → f.fileLine = 0) :=
      each_thread (mk := .java) (fun th l h => each_frame (mk := .java) (fun f l h => h) h) h
    simp only [bthashText, keepTrace, javaBt, Json.Java.keep]
    rw [threadsBt_map]
    intro th hth
    exact ⟨rfl, flatMap_keep fun f hf => congrArg _ (java_line (hc th hth f hf))⟩
  | gdb t => rfl
  | ruby t =>
    have hc : ∀ f ∈ t.frames, BtFits (.ruby f []) := each_frame (mk := .ruby) (P := BtFits) (fun f l h => h) (h (.ruby t) (by simp [allThreads]))
    simp only [bthashText, keepTrace, rubyBt, Json.Ruby.keep, threadsBt]
    rw [flatMap_keep]
    intro f hf
    obtain ⟨h1, h2, h3, h4⟩ := hc f hf
    simp only [rubyFrameBt, Json.Ruby.keepFrame, Json.keep32_of h1, Json.keep32_of h2, Json.keep32_of h3, and_isSome h4]
  | js t =>
    have hc : ∀ f ∈ t.frames, BtFits (.js f []) := each_frame (mk := .js) (P := BtFits) (fun f l h => h) (h (.js t) (by simp [allThreads]))
    simp only [bthashText, keepTrace, jsBt, Json.Js.keep, threadsBt]
    rw [flatMap_keep]
    intro f hf
    have h1 : f.fileLine < 2 ^ 31 := hc f hf
    simp only [jsFrameBt, Json.Js.keepFrame, Json.keep32_of h1]

/-! ## The crash thread -/

theorem findExitThread_keep : ∀ (l : List CoreThread) (i : Nat),
    Short.findExitThread i (l.map Json.Core.keepThread) = Short.findExitThread i l
  | [], _ => rfl
  | t :: l, i => by
    simp only [List.map_cons, Short.findExitThread, findExitThread_keep l (i + 1)]
    have e : (findExit coreIsExit (Crash.nodes (Json.Core.keepThread t).frames) none).isSome =
        (findExit coreIsExit (Crash.nodes t.frames) none).isSome := by
      rw [Crash.findExit_isSome, Crash.findExit_isSome, show (Json.Core.keepThread t).frames = t.frames.map Json.Core.keepFrame from rfl,
        nodes_map, List.any_map]
      rfl
    rw [e]

theorem exitIn_iff (l : List CoreFrame) : (findExit coreIsExit (Crash.nodes l) none).isSome = true ↔ ∃ f ∈ l, coreIsExit f = true := by
  rw [Crash.findExit_isSome]
  have : (Crash.nodes l).any (fun n => coreIsExit n.val) = l.any coreIsExit := by
    conv_rhs => rw [← nodes_val l, List.any_map]
    rfl
  rw [this]
  simp

/-- The thread that is found has an exit frame. -/
theorem findExitThread_some : ∀ (l : List CoreThread) (i k : Nat), Short.findExitThread i l = some k →
    i ≤ k ∧ ∃ th, l[k - i]? = some th ∧ ∃ f ∈ th.frames, coreIsExit f = true
  | [], i, k, h => by cases h
  | t :: l, i, k, h => by
    unfold Short.findExitThread at h
    split at h
    · next e =>
      cases h
      exact ⟨Nat.le_refl _, t, by simp, (exitIn_iff _).1 e⟩
    · obtain ⟨h1, th, h2, h3⟩ := findExitThread_some l (i + 1) k h
      refine ⟨by omega, th, ?_, h3⟩
      rw [show k - i = (k - (i + 1)) + 1 by omega, List.getElem?_cons_succ]
      exact h2

theorem crashThread_many {t : CoreTrace} (h : 2 ≤ t.threads.length) :
    Short.coreCrashThread t = match t.crashThread with | some i => some i | none => Short.findExitThread 0 t.threads := by
  unfold Short.coreCrashThread
  cases t.crashThread with
  | some k => rfl
  | none =>
    dsimp only
    match e : t.threads, h with
    | [], h => simp at h
    | [_], h => simp at h
    | a :: b :: l, _ => rfl

theorem coreCrashThread_keep (t : CoreTrace) (h : t.threads ≠ []) (hc : CrashIn (.core t)) :
    Short.coreCrashThread (Json.Core.keep t) = Short.coreCrashThread t ↔ CrashFits (.core t) := by
  unfold CrashFits
  dsimp only
  have hlen : (Json.Core.keep t).threads.length = t.threads.length := by simp [Json.Core.keep]
  have hpos : 0 < t.threads.length := List.length_pos_of_ne_nil h
  rcases Nat.lt_or_ge 1 t.threads.length with h2 | h1
  · rw [crashThread_many h2, crashThread_many (hlen ▸ h2)]
    simp only [show ¬ t.threads.length = 1 by omega, false_or]
    simp only [Json.Core.keep, findExitThread_keep, Json.Core.keepCrash]
    cases hk : t.crashThread with
    | some k =>
      have hlt := hc k hk
      simp only [Option.getD_some, List.getElem?_eq_getElem hlt]
      by_cases he : t.threads[k].frames = []
      · simp only [he, if_true]
        constructor
        · intro e
          obtain ⟨-, th, h3, f, hf, -⟩ := findExitThread_some _ 0 k e
          rw [Nat.sub_zero, List.getElem?_eq_getElem hlt] at h3
          cases h3
          rw [he] at hf
          cases hf
        · intro h3
          exact absurd he (h3 _ rfl)
      · simp only [he, if_false, true_iff]
        intro th e
        cases e
        exact he
    | none =>
      simp only [Option.getD_none, List.getElem?_eq_getElem hpos]
      by_cases he : t.threads[0].frames = []
      · simp only [he, if_true, true_iff]
        intro th e
        cases e
        exact Or.inl he
      · simp only [he, if_false]
        have hcons : t.threads = t.threads[0] :: t.threads.drop 1 := by
          conv_lhs => rw [← List.drop_zero (l := t.threads), List.drop_eq_getElem_cons hpos]
        constructor
        · intro e th e'
          cases e'
          obtain ⟨-, th, h3, h4⟩ := findExitThread_some _ 0 0 e.symm
          rw [Nat.sub_zero, List.getElem?_eq_getElem hpos] at h3
          cases h3
          exact Or.inr h4
        · intro h3
          rcases h3 _ rfl with h3 | h3
          · exact absurd h3 he
          · rw [hcons, Short.findExitThread, if_pos ((exitIn_iff _).2 h3)]
  · have h1 : t.threads.length = 1 := by omega
    simp only [h1, true_or, iff_true]
    obtain ⟨th, hth⟩ := List.length_eq_one_iff.mp h1
    have hk : t.crashThread = none ∨ t.crashThread = some 0 := by
      cases hk : t.crashThread with
      | none => exact Or.inl rfl
      | some k => have := hc k hk; rw [h1] at this; exact Or.inr (by congr 1; omega)
    have e1 : Short.coreCrashThread t = some 0 := by
      unfold Short.coreCrashThread
      rcases hk with hk | hk <;> simp [hk, hth]
    rw [e1]
    unfold Short.coreCrashThread Json.Core.keep Json.Core.keepCrash
    have : t.crashThread.getD 0 = 0 := by rcases hk with hk | hk <;> simp [hk]
    simp only [this, hth, List.getElem?_cons_zero, List.map_cons, List.map_nil]
    by_cases he : th.frames = [] <;> simp [he]

theorem crashIn_keep (t : Stacktrace) : CrashIn (keepTrace t) := by
  cases t with
  | core t =>
    intro i h
    simp only [Json.Core.keep, Json.Core.keepCrash] at h ⊢
    rw [List.length_map]
    split at h
    · next th hth =>
      split at h
      · cases h
      · cases h
        exact (List.getElem?_eq_some_iff.mp hth).1
    · cases h
  | _ => trivial

theorem findCrashThread_keep {t : Stacktrace} (h : ReadBack t) (hc : CrashIn t) (hf : CrashFits t) :
    ∃ c, findCrashThread t = .ok c ∧ findCrashThread (keepTrace t) = .ok (c.map keepTh) ∧ ∀ th, c = some th → th ∈ allThreads t := by
  obtain ⟨c, h1, h2, -⟩ := C114_crash_thread t hc
  refine ⟨c, h1, ?_, h2⟩
  cases t with
  | core t =>
    change coreCrash t = .ok c at h1
    change coreCrash (Json.Core.keep t) = _
    have e := (coreCrashThread_keep t h.1 hc).2 hf
    unfold coreCrash at h1 ⊢
    rw [e]
    cases hk : Short.coreCrashThread t with
    | none => rw [hk] at h1; cases h1; rfl
    | some k =>
      rw [hk] at h1
      have hlt := coreCrashThread_lt hc hk
      simp only [if_pos hlt] at h1
      cases h1
      simp only [Json.Core.keep, List.length_map, if_pos hlt, threadAt, ← List.map_drop]
      cases t.threads.drop k <;> rfl
  | python t => cases h1; rfl
  | koops t => cases h1; rfl
  | java t =>
    change Out.ok (firstThread .java t.threads) = .ok c at h1
    cases h1
    change Out.ok (firstThread .java (t.threads.map Json.Java.keepThread)) = _
    cases t.threads <;> rfl
  | gdb t => exact h.elim
  | ruby t => cases h1; rfl
  | js t => cases h1; rfl

/-! ## The short text -/

theorem print_keep {f : Frame} (h : ShortFits f) : (keepFr f).appendToStr = f.appendToStr := by
  cases f with
  | core f l =>
    change Short.coreFrame (Json.Core.keepFrame f) = Short.coreFrame f
    simp only [Short.coreFrame, Json.Core.keepFrame]
    cases hn : f.functionName with
    | some n => rfl
    | none =>
      cases hb : f.buildId with
      | none => rfl
      | some b =>
        have : Fits f.buildIdOffset := h hn (by simp [hb])
        simp only [core_keep64_of this]
  | koops f l => rfl
  | python f l =>
    change Out.ok (Short.pythonFrame (Json.Python.keepFrame f)) = Out.ok (Short.pythonFrame f)
    obtain ⟨h1, h2⟩ := h
    simp only [Short.pythonFrame, Json.Python.keepFrame, and_isSome h2]
    cases hf : f.fileName with
    | none => rfl
    | some p => simp only [Json.keep32_of (h1 (by simp [hf])), Option.isSome_some, Bool.and_true]
  | java f l =>
    change Out.ok (Text.Java.printFrame (Json.Java.keepFrame f)) = Out.ok (Text.Java.printFrame f)
    cases he : f.isException with
    | true => simp only [Text.Java.printFrame, Json.Java.keepFrame, he, if_true]
    | false => rw [java_line (h he)]
  | gdb f l => rfl
  | ruby f l =>
    change Out.ok (Short.rubyFrame (Json.Ruby.keepFrame f)) = Out.ok (Short.rubyFrame f)
    obtain ⟨h1, h2, h3, h4⟩ := h
    simp only [Short.rubyFrame, Json.Ruby.keepFrame, and_isSome h4, Json.keep32_of h2, Json.keep32_of h3]
    cases hf : f.fileName with
    | none => rfl
    | some p => simp only [Json.keep32_of (h1 (by simp [hf]))]
  | js f l =>
    change Text.Js.printFrame (Json.Js.keepFrame f) = Text.Js.printFrame f
    simp only [Text.Js.printFrame, Json.Js.keepFrame]
    cases hf : f.fileName with
    | none => rfl
    | some p =>
      obtain ⟨h1, h2⟩ := h (by simp [hf])
      simp only [Json.keep32_of h1, Json.keep32_of h2]

theorem shortLoop_keep {F : Type} (mk : F → List F → Frame) (k : F → F) (hk : ∀ f l, keepFr (mk f l) = mk (k f) (l.map k))
    (hn : ∀ f l, (mk f l).next = .ok (first mk l)) (max : Int) : ∀ (l : List F) (n i : Nat), (∀ f ∈ frameTails mk l, ShortFits f) →
    shortLoop max n i (first mk (l.map k)) = shortLoop max n i (first mk l)
  | [], _, _, _ => rfl
  | f :: l, 0, i, h => rfl
  | f :: l, n + 1, i, h => by
    simp only [frameTails, List.mem_cons, forall_eq_or_imp] at h
    simp only [List.map_cons, first_cons, shortLoop, ← hk, print_keep h.1]
    simp only [hk, hn, Out.bind_ok, shortLoop_keep mk k hk hn max l n (i + 1) h.2]

theorem short_thread (max : Int) (t : Thread) (h : ∀ f ∈ allFrames t, ShortFits f) :
    (do let f ← (keepTh t).frames; shortLoop max (fuel f) 0 f) = (do let f ← t.frames; shortLoop max (fuel f) 0 f) := by
  have main : ∀ {F : Type} (mk : F → List F → Frame) (k : F → F) {print : F → Out Str} {bt : F → Str} {dup : DupFlags → F → Str},
      Kind mk print bt dup → (∀ f l, keepFr (mk f l) = mk (k f) (l.map k)) → ∀ l : List F, (∀ f ∈ frameTails mk l, ShortFits f) →
      shortLoop max (fuel (first mk (l.map k))) 0 (first mk (l.map k)) = shortLoop max (fuel (first mk l)) 0 (first mk l) := by
    intro F mk k _ _ _ hk he l hl
    rw [hk.fuel, hk.fuel, List.length_map]
    exact shortLoop_keep mk k he hk.next max l _ _ hl
  rw [frames_eq, frames_eq]
  cases t with
  | core t l => exact main .core _ kind_core (fun _ _ => rfl) _ h
  | python t => exact main .python _ kind_python (fun _ _ => rfl) _ h
  | koops t => exact main .koops _ kind_koops (fun _ _ => rfl) _ h
  | java t l => exact main .java _ kind_java (fun _ _ => rfl) _ h
  | gdb t l => rfl
  | ruby t => exact main .ruby _ kind_ruby (fun _ _ => rfl) _ h
  | js t => exact main .js _ kind_js (fun _ _ => rfl) _ h

theorem shortTextOf_keep {find : Stacktrace → Out (Option Thread)} {t : Stacktrace} {c : Option Thread} (max : Int)
    (h1 : find t = .ok c) (h2 : find (keepTrace t) = .ok (c.map keepTh)) (h : ∀ th, c = some th → ∀ f ∈ allFrames th, ShortFits f) :
    shortTextOf find (keepTrace t) max = shortTextOf find t max := by
  unfold shortTextOf
  rw [h1, h2]
  cases c with
  | none => rfl
  | some th =>
    have := short_thread max th (h th rfl)
    simp only [frames_eq, Out.bind_ok] at this
    simp only [Option.map_some, Out.bind_ok, frames_eq, this]

theorem toShortText_keep {t : Stacktrace} (h : ReadBack t) (hc : CrashIn t) (hf : CrashFits t)
    (hs : ∀ th ∈ allThreads t, ∀ f ∈ allFrames th, ShortFits f) (max : Int) : toShortText (keepTrace t) max = toShortText t max := by
  obtain ⟨c, h1, h2, h3⟩ := findCrashThread_keep h hc hf
  have h4 : ∀ th, c = some th → ∀ f ∈ allFrames th, ShortFits f := fun th e => hs th (h3 th e)
  have e : ∀ u : Stacktrace, (∀ g, u ≠ .gdb g) → toShortText u max = shortTextOf findCrashThread u max := by
    intro u hu
    cases u <;> first | rfl | exact absurd rfl (hu _)
  rw [e t (by rintro g rfl; exact h.elim), e (keepTrace t) (by intro g; cases t <;> simp [keepTrace]; exact h.elim)]
  exact shortTextOf_keep max h1 h2 h4

/-! ## The reason -/

/-- What `sr_stacktrace_get_reason` takes from the stack trace is not changed by JSON: an oops has no reason of its own, and the lines
(for JavaScript the columns) of the frames are small. -/
def ReasonFits : Stacktrace → Prop
  | .core _ | .gdb _ => True
  | .python t => ∀ f, t.frames.getLast? = some f → f.fileLine < 2 ^ 31
  | .koops t => t.reason = none
  | .java t => ∀ th f, t.threads.head? = some th → th.frames.getLast? = some f → f.fileLine < 2 ^ 31
  | .ruby t => ∀ f, t.frames.head? = some f → f.fileLine < 2 ^ 31
  | .js t => ∀ f, t.frames.head? = some f → f.fileLine < 2 ^ 31 ∧ f.lineColumn < 2 ^ 31

theorem lastFrame_eq : ∀ l : List PythonFrame, lastFrame l = l.getLast?
  | [] => rfl
  | [f] => rfl
  | f :: g :: l => by rw [lastFrame, lastFrame_eq (g :: l), List.getLast?_cons_cons]

theorem javaLoop_keep : ∀ (l : List JavaFrame) (v : JavaVars), (∀ f, l.getLast? = some f → f.fileLine < 2 ^ 31) →
    javaLoop v (l.map Json.Java.keepFrame) = javaLoop v l
  | [], _, _ => rfl
  | [f], v, h => by
    have h1 := h f rfl
    simp only [List.map_cons, List.map_nil, javaLoop]
    unfold notePosition noteException Json.Java.keepFrame
    cases hf : f.fileName with
    | none => simp only
    | some p => simp only [reduceCtorEq, if_false, if_true, Json.keep32_of h1]
  | f :: g :: l, v, h => by
    have ih := javaLoop_keep (g :: l) (notePosition (noteException v f) f (g :: l)) (by rwa [List.getLast?_cons_cons] at h)
    rw [List.map_cons, javaLoop, javaLoop, ← ih]
    rfl

theorem reason_keep {t : Stacktrace} (h : ReasonFits t) : getReason (keepTrace t) = getReason t := by
  rw [C114_reason, C114_reason]
  cases t with
  | core t => rfl
  | gdb t => rfl
  | python t =>
    simp only [keepTrace, traceReason, pythonReason, lastFrame_eq, Json.Python.keep, List.getLast?_map]
    cases hl : t.frames.getLast? with
    | none => rfl
    | some f => simp only [Option.map_some, Json.Python.keepFrame, Json.keep32_of (h f hl)]
  | koops t =>
    have h : t.reason = none := h
    simp only [keepTrace, traceReason, koopsReason, Json.Koops.keep, h]
    have e : Report.nodes (t.frames.map Json.Koops.keepFrame) = (Report.nodes t.frames).map (lift Json.Koops.keepFrame) := nodes_map _ _
    have hw : WF (Report.nodes t.frames) := Report.nodes_wf _
    have hw' : WF ((Report.nodes t.frames).map (lift Json.Koops.keepFrame)) := by rw [← e]; exact Report.nodes_wf _
    rw [e, Koops.normalizeKoops_eq _ hw, Koops.normalizeKoops_eq _ hw', koops_keep]
    simp only [Out.bind_ok, List.head?_map, Option.map_map]
    cases (List.filter (fun n => decide (Koops.Kept n)) (List.map Koops.undotted (Report.nodes t.frames))).head? <;> rfl
  | java t =>
    simp only [keepTrace, traceReason, javaReason, Json.Java.keep]
    cases ht : t.threads with
    | nil => rfl
    | cons th l =>
      simp only [List.map_cons, Json.Java.keepThread]
      rw [javaLoop_keep _ _ fun f hf => h th f (by simp [ht]) hf]
  | ruby t =>
    simp only [keepTrace, traceReason, rubyReason, Json.Ruby.keep]
    cases hl : t.frames with
    | nil => rfl
    | cons f l => simp only [List.map_cons, Json.Ruby.keepFrame, Json.keep32_of (h f (by simp [hl]))]
  | js t =>
    simp only [keepTrace, traceReason, jsReason, Json.Js.keep]
    cases hl : t.frames with
    | nil => rfl
    | cons f l =>
      obtain ⟨h1, h2⟩ := h f (by simp [hl])
      simp only [List.map_cons, Json.Js.keepFrame, Json.keep32_of h1, Json.keep32_of h2]

/-! ## Distances -/

theorem cmp_keep {f g : Frame} (hf : DistFits f) (hg : DistFits g) : sameFrame (keepFr f) (keepFr g) = sameFrame f g := by
  unfold sameFrame
  have ht : ∀ f, (keepFr f).type = f.type := by intro f; cases f <;> rfl
  by_cases e : f.type = g.type
  · rw [(C114_cmp_distance f g).1 e, (C114_cmp_distance _ _).1 (by rw [ht, ht, e])]
    have : distanceCmp (keepFr f) (keepFr g) = distanceCmp f g := by
      cases f <;> cases g <;> first | contradiction | skip
      · next f l g m =>
        have h1 : Fits f.buildIdOffset := hf
        have h2 : Fits g.buildIdOffset := hg
        simp only [distanceCmp, keepFr, coreCmpDistance, Json.Core.keepFrame, core_keep64_of h1, core_keep64_of h2]
      · next f l g m =>
        simp only [distanceCmp, keepFr, pythonCmpDistance, Json.Python.keepFrame, and_isSome hf.1, and_isSome hf.2, and_isSome hg.1,
          and_isSome hg.2]
      · rfl
      · rfl
      · rfl
      · next f l g m =>
        have h1 := and_isSome hf
        have h2 := and_isSome hg
        simp only [distanceCmp, keepFr, rubyCmpDistance, Json.Ruby.keepFrame, h1, h2]
      · next f l g m =>
        have h1 : f.fileLine < 2 ^ 31 := hf
        have h2 : g.fileLine < 2 ^ 31 := hg
        simp only [distanceCmp, keepFr, jsCmpDistance, Json.Js.keepFrame, Json.keep32_of h1, Json.keep32_of h2]
    rw [this]
  · obtain ⟨c, h1, h2⟩ := (C114_cmp_distance f g).2 e
    obtain ⟨d, h3, h4⟩ := (C114_cmp_distance (keepFr f) (keepFr g)).2 (by rw [ht, ht]; exact e)
    rw [h1, h3]
    simp [h2, h4]

section
variable {F P : Type} (eq : F → F → Bool) (φ : P → F)
open Satyr.Levenshtein (pull)

theorem jwInner_map (mx i : Nat) (x : P) : ∀ (l : List P) (j : Nat) (p : Bool),
    Metrics.jwInner eq mx i (φ x) (l.map φ) j p = Metrics.jwInner (pull eq φ) mx i x l j p
  | [], _, _ => rfl
  | y :: l, j, p => by
    simp only [List.map_cons, Metrics.jwInner, jwInner_map mx i x l]
    rfl

theorem jwOuter_map (mx : Nat) (b : List P) : ∀ (a : List P) (i : Nat) (s : Metrics.JW),
    Metrics.jwOuter eq mx (b.map φ) (a.map φ) i s = Metrics.jwOuter (pull eq φ) mx b a i s
  | [], _, _ => rfl
  | x :: a, i, s => by
    simp only [List.map_cons, Metrics.jwOuter, jwInner_map eq φ, jwOuter_map mx b a]

theorem distance_map {T : Type} [DecidableEq T] (ty : Option Distances.DistType) (t u : T) (a b : List P) :
    Metrics.distance eq ty (⟨t, a.map φ⟩ : Metrics.Thread T F) ⟨u, b.map φ⟩ =
      Metrics.distance (pull eq φ) ty (⟨t, a⟩ : Metrics.Thread T P) ⟨u, b⟩ := by
  unfold Metrics.distance
  simp only [Levenshtein.distance_map, Metrics.jaccard_map, Metrics.jaroWinkler, jwOuter_map, List.length_map]
end

/-- A change that the comparison does not notice does not change distances. -/
theorem distance_keep {F T : Type} [DecidableEq T] (eq : F → F → Bool) (k : F → F) {S : F → Prop}
    (h : ∀ f g, S f → S g → eq (k f) (k g) = eq f g) (ty : Option Distances.DistType) (t u : T) (a b : List F)
    (ha : ∀ f ∈ a, S f) (hb : ∀ f ∈ b, S f) :
    Metrics.distance eq ty (⟨t, a.map k⟩ : Metrics.Thread T F) ⟨u, b.map k⟩ = Metrics.distance eq ty (⟨t, a⟩ : Metrics.Thread T F) ⟨u, b⟩ := by
  have ea : a = (a.attachWith S ha).map Subtype.val := by simp
  have eb : b = (b.attachWith S hb).map Subtype.val := by simp
  have ea' : a.map k = (a.attachWith S ha).map fun x => k x.val := by
    conv_lhs => rw [ea, List.map_map]
    rfl
  have eb' : b.map k = (b.attachWith S hb).map fun x => k x.val := by
    conv_lhs => rw [eb, List.map_map]
    rfl
  rw [ea', eb', distance_map]
  conv_rhs => rw [ea, eb, distance_map]
  have : Levenshtein.pull eq (fun x : Subtype S => k x.val) = Levenshtein.pull eq Subtype.val := by
    funext x y
    exact h _ _ x.2 y.2
  rw [this]

/-! ## C135 -/

/-- C135, the hash for duplicates: in the stack trace read from the JSON written for another, every thread has the hash that it had in
the other one, with any limit, prefix and flags, and so has the crash thread, if the numbers that go into the hashes are small. -/
theorem C135_duphash_partial (t r : Stacktrace) (h : ReadBack t) (hr : Sent t r)
    (hf : ∀ th ∈ allThreads t, ∀ f ∈ allFrames th, DupFits f) (sha1 : Str → Str) (n : Int) (pre : Option Str) (fl : DupFlags) :
    (allThreads r).map (fun th => th.duphash sha1 n pre fl) = (allThreads t).map (fun th => th.duphash sha1 n pre fl) ∧
    (CrashIn t → CrashFits t → ∃ c d, findCrashThread t = .ok c ∧ findCrashThread r = .ok d ∧
      d.map (fun th => th.duphash sha1 n pre fl) = c.map fun th => th.duphash sha1 n pre fl) := by
  rw [sent_keep h hr]
  constructor
  · rw [allThreads_keep, List.map_map]
    exact List.map_congr_left fun th hth => duphash_keep sha1 th (hf th hth) n pre fl
  · intro hc hcf
    obtain ⟨c, h1, h2, h3⟩ := findCrashThread_keep h hc hcf
    refine ⟨c, _, h1, h2, ?_⟩
    cases c with
    | none => rfl
    | some th => exact congrArg some (duphash_keep sha1 th (hf th (h3 th rfl)) n pre fl)

/-- C135, the hash of the stack trace. -/
theorem C135_bthash_partial (t r : Stacktrace) (h : ReadBack t) (hr : Sent t r)
    (hf : ∀ th ∈ allThreads t, ∀ f ∈ allFrames th, BtFits f) (sha1 : Str → Str) (nohash : Bool) :
    getBthash sha1 r nohash = getBthash sha1 t nohash := by
  have e := bthashText_keep t hf
  rw [sent_keep h hr]
  cases nohash
  · rw [(C114_bthash sha1 _).2, (C114_bthash sha1 _).2, e]
  · rw [(C114_bthash sha1 _).1, (C114_bthash sha1 _).1, e]

/-- C135, the short text. -/
theorem C135_short_text_partial (t r : Stacktrace) (h : ReadBack t) (hr : Sent t r) (hc : CrashIn t) (hcf : CrashFits t)
    (hf : ∀ th ∈ allThreads t, ∀ f ∈ allFrames th, ShortFits f) (max : Int) : toShortText r max = toShortText t max := by
  rw [sent_keep h hr]
  exact toShortText_keep h hc hcf hf max

/-- C135, the crash thread of a core stack trace: the same thread is found in what is read back exactly if it is known and has frames,
or there is only one thread, or it is not known and the first thread has no frames or a frame of a function that ends the program. -/
theorem C135_crash_thread (t r : CoreTrace) (h : ReadBack (.core t)) (hc : CrashIn (.core t)) (hr : Sent (.core t) (.core r)) :
    Short.coreCrashThread r = Short.coreCrashThread t ↔ CrashFits (.core t) := by
  have := sent_keep h hr
  cases this
  exact coreCrashThread_keep t h.1 hc

/-- C135, the reason. -/
theorem C135_reason_partial (t r : Stacktrace) (h : ReadBack t) (hr : Sent t r) (hf : ReasonFits t) : getReason r = getReason t := by
  rw [sent_keep h hr]
  exact reason_keep hf

/-- C135, distances: two threads of stack traces that went through JSON have, in any of the metrics, the distance of the threads at the
same positions of the stack traces that were written. -/
theorem C135_distance_partial (t t' r r' : Stacktrace) (h : ReadBack t) (h' : ReadBack t') (hr : Sent t r) (hr' : Sent t' r')
    (hf : ∀ th ∈ allThreads t, ∀ f ∈ allFrames th, DistFits f) (hf' : ∀ th ∈ allThreads t', ∀ f ∈ allFrames th, DistFits f)
    (ty : Option Distances.DistType) :
    ((allThreads r).map fun a => (allThreads r').map fun b => threadDistance ty a b) =
      (allThreads t).map fun a => (allThreads t').map fun b => threadDistance ty a b := by
  rw [sent_keep h hr, sent_keep h' hr', allThreads_keep, allThreads_keep, List.map_map]
  refine List.map_congr_left fun a ha => ?_
  rw [Function.comp, List.map_map]
  refine List.map_congr_left fun b hb => ?_
  have ht : ∀ th, (keepTh th).type = th.type := by intro th; cases th <;> rfl
  simp only [Function.comp, threadDistance, ht, allFrames_keep]
  exact distance_keep sameFrame keepFr (fun f g => cmp_keep) ty _ _ _ _ (hf a ha) (hf' b hb)

theorem dup_keep_iff (f : Frame) : (∀ fl, (keepFr f).duphash fl = f.duphash fl) ↔ DupFits f := by
  have k64 : ∀ n, Json.Core.keep64 n = n ↔ Fits n := by
    intro n
    refine ⟨fun h => ?_, core_keep64_of⟩
    unfold Json.Core.keep64 at h
    unfold Fits
    split at h
    · exact Or.inl ‹_›
    · exact Or.inr (by omega)
  have k32 : ∀ n, Json.keep32 n = n ↔ n < 2 ^ 31 := by intro n; unfold Json.keep32; omega
  have hex : ∀ a b : Nat, hex0x a = hex0x b ↔ a = b := fun a b => ⟨hex0x_inj, fun h => h ▸ rfl⟩
  have dec : ∀ a b : Nat, natDec a = natDec b ↔ a = b := fun a b => ⟨natDec_injective, fun h => h ▸ rfl⟩
  cases f with
  | core f l =>
    refine Iff.trans (b := coreDup (Json.Core.keepFrame f) = coreDup f) ⟨fun h => Out.ok.inj (h {}), fun h _ => congrArg Out.ok h⟩ ?_
    unfold coreDup DupFits Json.Core.keepFrame
    dsimp only
    cases hb : f.buildId with
    | some b => simp only [List.append_cancel_right_eq, List.append_cancel_left_eq, hex, k64]
    | none =>
      cases hn : f.functionName with
      | some n => simp
      | none =>
        cases hp : f.fingerprint with
        | some p => simp only [List.append_cancel_right_eq, List.append_cancel_left_eq, hex, k64]
        | none => simp only [List.append_cancel_right_eq, hex, k64]
  | python f l =>
    refine Iff.trans (b := pythonDup (Json.Python.keepFrame f) = pythonDup f) ⟨fun h => Out.ok.inj (h {}), fun h _ => congrArg Out.ok h⟩ ?_
    simp only [pythonDup, DupFits, Json.Python.keepFrame, List.append_cancel_right_eq, List.append_cancel_left_eq, dec, k32]
  | koops f l =>
    refine Iff.trans (b := ∀ fl, koopsDup fl (Json.Koops.keepFrame f) = koopsDup fl f)
      ⟨fun h fl => Out.ok.inj (h fl), fun h fl => congrArg Out.ok (h fl)⟩ ?_
    refine ⟨fun h hn => ?_, fun h fl => koopsDup_keep h⟩
    have := h {}
    simp only [koopsDup, Json.Koops.keepFrame, hn, Bool.false_and, if_false, Bool.false_eq_true, List.append_cancel_right_eq, hex,
      Json.Koops.keep64] at this
    omega
  | java f l =>
    refine Iff.trans (b := javaDup (Json.Java.keepFrame f) = javaDup f) ⟨fun h => Out.ok.inj (h {}), fun h _ => congrArg Out.ok h⟩ ?_
    unfold javaDup DupFits Json.Java.keepFrame
    dsimp only
    cases hn : f.name with
    | some n => simp
    | none =>
      simp only [List.append_cancel_right_eq, List.append_cancel_left_eq, dec, true_implies]
      cases hf : f.fileName with
      | none => simp only [if_true, true_implies]; omega
      | some p => simp [k32]
  | gdb f l => exact ⟨fun _ => trivial, fun _ _ => rfl⟩
  | ruby f l =>
    refine Iff.trans (b := rubyDup (Json.Ruby.keepFrame f) = rubyDup f) ⟨fun h => Out.ok.inj (h {}), fun h _ => congrArg Out.ok h⟩ ?_
    simp only [rubyDup, DupFits, Json.Ruby.keepFrame, List.append_cancel_right_eq, List.append_cancel_left_eq, dec, k32]
  | js f l =>
    refine Iff.trans (b := jsDup (Json.Js.keepFrame f) = jsDup f) ⟨fun h => Out.ok.inj (h {}), fun h _ => congrArg Out.ok h⟩ ?_
    simp only [jsDup, DupFits, Json.Js.keepFrame, List.append_cancel_right_eq, List.append_cancel_left_eq, dec, k32]

/-- C135, the conditions for the hash for duplicates are the right ones: the texts that the frames give to the hash are unchanged
exactly under them. -/
theorem C135_duphash_frames (t r : Stacktrace) (h : ReadBack t) (hr : Sent t r) :
    (∀ fl, (allThreads r).map (fun th => (allFrames th).map fun f => f.duphash fl) =
      (allThreads t).map fun th => (allFrames th).map fun f => f.duphash fl) ↔ ∀ th ∈ allThreads t, ∀ f ∈ allFrames th, DupFits f := by
  rw [sent_keep h hr, allThreads_keep]
  simp only [List.map_map, List.map_inj_left, Function.comp, allFrames_keep, ← dup_keep_iff]
  exact ⟨fun h th hth f hf fl => h fl th hth f hf, fun h fl th hth f hf => h th hth f hf fl⟩

/-- C135: the conditions of the theorems about hashes, texts and distances speak of stack traces that are read back at all. -/
theorem C135_sent (t : Stacktrace) (h : ReadBack t) : ∃ r, Sent t r ∧ typeOf r = typeOf t ∧
    (allThreads r).length = (allThreads t).length ∧ (allThreads r).map numFrames = (allThreads t).map numFrames := by
  obtain ⟨s, h1, h2⟩ := (C114_json t).1 h
  refine ⟨keepTrace t, ⟨s, h1, h2⟩, by cases t <;> rfl, by rw [allThreads_keep, List.length_map], ?_⟩
  rw [allThreads_keep, List.map_map]
  refine List.map_congr_left fun th _ => ?_
  cases th <;> simp [keepTh, numFrames, Json.Core.keepThread, Json.Java.keepThread, Json.Python.keep, Json.Koops.keep, Json.Ruby.keep,
    Json.Js.keep]

/-- C135 does not hold for the crash thread if it is not known: here the second thread aborted, and after JSON the first thread is
taken for the one that crashed, so that the short text is that of another thread. -/
theorem C135_not_crash_thread : ∃ t r : Stacktrace, ReadBack t ∧ CrashIn t ∧ Sent t r ∧
    (∀ th ∈ allThreads t, ∀ f ∈ allFrames th, ShortFits f) ∧ toShortText r 5 ≠ toShortText t 5 := by
  let t : Stacktrace := .core { threads := [{ frames := [{ functionName := some c!"main" }] },
    { frames := [{ functionName := some c!"raise", fileName := some c!"libc.so" },
      { functionName := some c!"abort", fileName := some c!"libc.so" }] }] }
  have h : ReadBack t := ⟨by simp, by decide⟩
  obtain ⟨s, h1, h2⟩ := (C114_json t).1 h
  refine ⟨t, _, h, ?_, ⟨s, h1, h2⟩, ?_, by decide +kernel⟩
  · intro i h; cases h
  · intro th hth f hf
    simp only [t, allThreads, tails, List.mem_cons, List.not_mem_nil, or_false] at hth
    rcases hth with rfl | rfl <;> simp only [allFrames, frameTails, List.mem_cons, List.not_mem_nil, or_false] at hf
    · subst hf; exact fun h => by cases h
    · rcases hf with rfl | rfl <;> exact fun h => by cases h

/-- C135 does not hold for oopses with a reason: it is not written to JSON. -/
theorem C135_not_reason : ∃ t r : Stacktrace, ReadBack t ∧ Sent t r ∧ getReason t = .ok (some c!"BUG: bad page") ∧
    getReason r ≠ getReason t := by
  let t : Stacktrace := .koops { reason := some c!"BUG: bad page", frames := [{ functionName := some c!"f" }] }
  have h : ReadBack t := fun l h => by cases h
  obtain ⟨s, h1, h2⟩ := (C114_json t).1 h
  exact ⟨t, _, h, ⟨s, h1, h2⟩, by decide +kernel, by decide +kernel⟩

/-- C135 does not hold for the addresses of the kernel, which have the highest bit: after JSON they are 2^63 - 1, and so is the hash
for duplicates of a frame that has no name, and the hash of the whole stack trace. -/
theorem C135_not_high_address : ∃ t r : Stacktrace, ReadBack t ∧ Sent t r ∧
    (allThreads t).map (fun th => th.duphash id 0 none { nohash := true }) = [.ok (some c!"Thread\n0xffffffff81000000\n")] ∧
    (allThreads r).map (fun th => th.duphash id 0 none { nohash := true }) = [.ok (some c!"Thread\n0x7fffffffffffffff\n")] ∧
    getBthash id r true ≠ getBthash id t true := by
  let t : Stacktrace := .koops { frames := [{ address := 0xffffffff81000000, reliable := true }] }
  have h : ReadBack t := fun l h => by cases h
  obtain ⟨s, h1, h2⟩ := (C114_json t).1 h
  exact ⟨t, _, h, ⟨s, h1, h2⟩, by decide +kernel, by decide +kernel, by decide +kernel⟩

/-- A core stack trace of two threads and what is read back: another stack trace, as the offset that is not known in a frame without
build ID is not written, with the same hashes. -/
example : ∃ t r : Stacktrace, ReadBack t ∧ CrashIn t ∧ CrashFits t ∧ Sent t r ∧ (allThreads t).length = 2 ∧
    (∀ th ∈ allThreads t, ∀ f ∈ allFrames th, DupFits f ∧ BtFits f ∧ ShortFits f ∧ DistFits f) := by
  let t : Stacktrace := .core { crashThread := some 1, threads := [{ frames := [{ functionName := some c!"main" }] },
    { frames := [{ address := 4198400, buildId := some c!"ab", buildIdOffset := 4096 },
      { address := Json.Core.ulongMax, functionName := some c!"f" }] }] }
  have h : ReadBack t := ⟨by simp, by decide⟩
  obtain ⟨s, h1, h2⟩ := (C114_json t).1 h
  refine ⟨t, _, h, ?_, ?_, ⟨s, h1, h2⟩, rfl, ?_⟩
  · intro i h; cases h; decide
  · refine Or.inr ?_
    intro th e
    cases e
    simp
  · intro th hth f hf
    simp only [t, allThreads, tails, List.mem_cons, List.not_mem_nil, or_false] at hth
    rcases hth with rfl | rfl <;> simp only [allFrames, frameTails, List.mem_cons, List.not_mem_nil, or_false] at hf
    · subst hf; simp [DupFits, BtFits, ShortFits, DistFits, Fits]
    · rcases hf with rfl | rfl <;> simp [DupFits, BtFits, ShortFits, DistFits, Fits]

/-- Lines do not count for the distance of Python frames, names do. -/
example : sameFrame (.python { fileName := some c!"a.py", fileLine := 1, functionName := some c!"f" } [])
      (.python { fileName := some c!"a.py", fileLine := 2, functionName := some c!"f" } []) = true ∧
    sameFrame (.python { fileName := some c!"a.py", fileLine := 1, functionName := some c!"f" } [])
      (.python { fileName := some c!"a.py", fileLine := 1, functionName := some c!"g" } []) = false := by decide +kernel

end Satyr.Generic
