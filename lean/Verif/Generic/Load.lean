import Verif.Generic.Survive
/-!
# What identifies a crash does not depend on where the program was loaded (C142)
-/
namespace Satyr.Generic
open Satyr.CStr Satyr.Frames Satyr.Normalize Satyr.Threads Satyr.Report Satyr.Hash

/-! ## Specification -/

/-- All that is left of an address: whether it is zero. -/
def mark (a : Nat) : Nat := if a = 0 then 0 else 1

def plainCore (f : CoreFrame) : CoreFrame := { f with address := mark f.address }
def plainGdb (f : GdbFrame) : GdbFrame := { f with address := mark f.address }
def plainKoops (f : KoopsFrame) : KoopsFrame := { f with address := 0, fromAddress := 0 }

def plainCoreTh (t : CoreThread) : CoreThread := { t with frames := t.frames.map plainCore }
def plainGdbTh (t : GdbThread) : GdbThread := { t with frames := t.frames.map plainGdb }

/-- A thread without its addresses. -/
def plainTh : Thread → Thread
  | .core t l => .core (plainCoreTh t) (l.map plainCoreTh)
  | .gdb t l => .gdb (plainGdbTh t) (l.map plainGdbTh)
  | .koops t => .koops { t with frames := t.frames.map plainKoops }
  | t => t

/-- A stack trace without its addresses. -/
def plain : Stacktrace → Stacktrace
  | .core t => .core { t with threads := t.threads.map plainCoreTh }
  | .gdb t => .gdb { t with threads := t.threads.map plainGdbTh, crash := t.crash.map plainGdb, libs := t.libs.map fun l => { l with lo := 0, hi := 0 } }
  | .koops t => .koops { t with frames := t.frames.map plainKoops }
  | t => t

/-- Two stack traces of the same crash of a program that was loaded at different addresses: they are equal apart from the addresses, and
from which of these are not zero. -/
def SameCrash (t u : Stacktrace) : Prop := plain t = plain u

/-- The frame can be identified without its address: a core frame has a build id, the name of a function or a fingerprint, and a frame of
an oops has the name of a function. -/
def Identified : Frame → Prop
  | .core f _ => f.buildId ≠ none ∨ f.functionName ≠ none ∨ f.fingerprint ≠ none
  | .koops f _ => f.functionName ≠ none
  | _ => True

/-! ## Lemmas -/

def plainFr : Frame → Frame
  | .core f l => .core (plainCore f) (l.map plainCore)
  | .gdb f l => .gdb (plainGdb f) (l.map plainGdb)
  | .koops f l => .koops (plainKoops f) (l.map plainKoops)
  | f => f

theorem mark_zero (n : Nat) : mark n = 0 ↔ n = 0 := by
  unfold mark
  split <;> simp_all

theorem allThreads_plain (t : Stacktrace) : allThreads (plain t) = (allThreads t).map plainTh := by
  cases t with
  | core t => exact tails_map .core _ plainTh (fun _ _ => rfl) _
  | gdb t => exact tails_map .gdb _ plainTh (fun _ _ => rfl) _
  | java t =>
    have := tails_map .java id plainTh (fun t l => by simp [plainTh]) t.threads
    rw [List.map_id] at this
    exact this
  | _ => rfl

theorem allFrames_plain (t : Thread) : allFrames (plainTh t) = (allFrames t).map plainFr := by
  have main : ∀ {F : Type} (mk : F → List F → Frame), (∀ f l, plainFr (mk f l) = mk f l) → ∀ l, frameTails mk l = (frameTails mk l).map plainFr := by
    intro F mk h l
    have := frameTails_map mk id plainFr (fun f l => by simp [h]) l
    rw [List.map_id] at this
    exact this
  cases t with
  | core t l => exact frameTails_map .core _ plainFr (fun _ _ => rfl) _
  | gdb t l => exact frameTails_map .gdb _ plainFr (fun _ _ => rfl) _
  | koops t => exact frameTails_map .koops _ plainFr (fun _ _ => rfl) _
  | python t => exact main .python (fun _ _ => rfl) _
  | java t l => exact main .java (fun _ _ => rfl) _
  | ruby t => exact main .ruby (fun _ _ => rfl) _
  | js t => exact main .js (fun _ _ => rfl) _

theorem core_plain_unnoticed : Unnoticed coreOps plainCore where
  exit f := rfl
  rename f := by
    simp only [coreOps, renameCore, stripCore, plainCore]
    cases findNewName (stripPrefixes f.functionName) f.fileName <;> rfl
  rem f := rfl
  wa f := rfl
  post f := rfl
  null f := by
    simp only [coreOps, coreIsNull, plainCore]
    congr 1
    rw [Bool.eq_iff_iff]
    simp [mark_zero]
  same f g := rfl

theorem gdb_plain_unnoticed : Unnoticed gdbOps plainGdb where
  exit f := rfl
  rename f := by
    simp only [gdbOps, renameGdb, normalizeGdbFrame, plainGdb]
    by_cases hs : f.sourceFile.isSome
    · simp only [hs, if_true]
      split <;> rfl
    · simp only [hs, Bool.false_eq_true, if_false]
      split <;> rfl
  rem f := rfl
  wa f := rfl
  post f := rfl
  null f := by
    simp only [gdbOps, gdbIsNull, plainGdb]
    congr 1
    rw [Bool.eq_iff_iff]
    simp [mark_zero]
  same f g := rfl

theorem koops_plain (t : List (Node KoopsFrame)) :
    ((t.map (lift plainKoops)).map Koops.undotted).filter (fun n => decide (Koops.Kept n)) =
      ((t.map Koops.undotted).filter fun n => decide (Koops.Kept n)).map (lift plainKoops) := by
  rw [List.map_map, show Koops.undotted ∘ lift plainKoops = lift plainKoops ∘ Koops.undotted from rfl,
    ← List.map_map, List.filter_map]
  rfl

/-- What is left of a core frame that is identified after the steps of the normalization. -/
theorem core_post_identified {f : CoreFrame} (h : Identified (.core f [])) : Identified (.core (coreOps.post (coreOps.rename f)) []) := by
  have hs : stripPrefixes f.functionName = none ↔ f.functionName = none := by
    simp only [stripPrefixes, removeFuncPrefix_none]
  have key : ∃ n, (coreOps.post (coreOps.rename f)) = { f with functionName := n, fileName := f.fileName.map anonymizePath } ∧
      (n = none → f.functionName = none) := by
    simp only [coreOps, renameCore, stripCore]
    cases hf : findNewName (stripPrefixes f.functionName) f.fileName with
    | none => exact ⟨_, rfl, hs.1⟩
    | some n => exact ⟨some n, rfl, fun e => by cases e⟩
  obtain ⟨n, e, hn⟩ := key
  rw [e]
  rcases h with h | h | h
  · exact .inl h
  · exact .inr (.inl fun e => h (hn e))
  · exact .inr (.inr h)

theorem coreDup_plain {f : CoreFrame} (h : Identified (.core f [])) : coreDup (plainCore f) = coreDup f := by
  unfold coreDup plainCore
  dsimp only
  cases hb : f.buildId with
  | some b => rfl
  | none =>
    cases hn : f.functionName with
    | some n => rfl
    | none =>
      cases hp : f.fingerprint with
      | some p => rfl
      | none => simp [Identified, hb, hn, hp] at h

theorem koopsDup_plain {fl : DupFlags} {f : KoopsFrame} (h : f.functionName ≠ none) : koopsDup fl (plainKoops f) = koopsDup fl f := by
  unfold koopsDup
  simp only [plainKoops]
  cases hf : f.functionName with
  | some n => rfl
  | none => exact absurd hf h

theorem duphash_plain (sha1 : Str → Str) (t : Thread) (h : ∀ f ∈ allFrames t, Identified f) (n : Int) (pre : Option Str) (fl : DupFlags) :
    (plainTh t).duphash sha1 n pre fl = t.duphash sha1 n pre fl := by
  rw [C114_duphash, C114_duphash]
  unfold Hash.duphash
  cases t with
  | core t l =>
    have hc : ∀ f ∈ t.frames, Identified (.core f []) := each_frame (mk := .core) (fun f l h => h) h
    have e : toHash (plainTh (.core t l)) = .core ((Crash.nodes t.frames).map (lift plainCore)) := by
      rw [← nodes_map]; rfl
    have hv : ∀ m ∈ Crash.nodes t.frames, Identified (.core m.val []) := by
      intro m hm
      refine hc _ ?_
      rw [← nodes_val t.frames]
      exact List.mem_map_of_mem hm
    rw [e]
    split
    · exact duphashOf_congr fun n buf => dupLoop_lift coreDup _ _ n buf fun f hf => coreDup_plain (hv f hf)
    · simp only [Hash.Thread.normalize, toHash]
      have hw := Crash.nodes_wf t.frames
      have hw' : WF ((Crash.nodes t.frames).map (lift plainCore)) := by rw [← nodes_map]; exact Crash.nodes_wf _
      rw [normalizeCore_eq _ hw, normalizeCore_eq _ hw', core_plain_unnoticed.pipeline]
      refine duphashOf_congr fun n buf => dupLoop_lift coreDup _ _ n buf fun f hf => coreDup_plain ?_
      obtain ⟨m, hm, e⟩ := pipeline_val coreOps hf
      rw [e]
      exact core_post_identified (hv m hm)
  | gdb t l =>
    have e : toHash (plainTh (.gdb t l)) = .gdb ((Crash.nodes t.frames).map (lift plainGdb)) := by
      rw [← nodes_map]; rfl
    rw [e]
    split
    · exact duphashOf_congr fun n buf => dupLoop_lift gdbDup _ _ n buf fun f hf => rfl
    · simp only [Hash.Thread.normalize, toHash]
      have hw := Crash.nodes_wf t.frames
      have hw' : WF ((Crash.nodes t.frames).map (lift plainGdb)) := by rw [← nodes_map]; exact Crash.nodes_wf _
      rw [normalizeGdb_eq _ hw, normalizeGdb_eq _ hw', gdb_plain_unnoticed.pipeline]
      exact duphashOf_congr fun n buf => dupLoop_lift gdbDup _ _ n buf fun f hf => rfl
  | koops t =>
    have hc : ∀ f ∈ t.frames, f.functionName ≠ none := each_frame (mk := .koops) (fun f l h => h) h
    have e : toHash (plainTh (.koops t)) = .koops ((Crash.nodes t.frames).map (lift plainKoops)) := by
      rw [← nodes_map]; rfl
    have hv : ∀ m ∈ Crash.nodes t.frames, m.val.functionName ≠ none := by
      intro m hm
      refine hc _ ?_
      rw [← nodes_val t.frames]
      exact List.mem_map_of_mem hm
    rw [e]
    split
    · exact duphashOf_congr fun n buf => dupLoop_lift (koopsDup fl) _ _ n buf fun f hf => koopsDup_plain (hv f hf)
    · simp only [Hash.Thread.normalize, toHash]
      have hw := Crash.nodes_wf t.frames
      have hw' : WF ((Crash.nodes t.frames).map (lift plainKoops)) := by rw [← nodes_map]; exact Crash.nodes_wf _
      rw [Koops.normalizeKoops_eq _ hw, Koops.normalizeKoops_eq _ hw', koops_plain]
      refine duphashOf_congr fun n buf => dupLoop_lift (koopsDup fl) _ _ n buf fun f hf => koopsDup_plain ?_
      obtain ⟨m, hm, rfl⟩ := List.mem_map.mp (List.mem_of_mem_filter hf)
      intro hn
      refine hv m hm ?_
      simpa [Koops.undotted] using hn
  | _ => rfl

theorem identified_plain (f : Frame) : Identified (plainFr f) ↔ Identified f := by cases f <;> rfl

/-! ### The crash thread -/

theorem findExitThread_plain : ∀ (l : List CoreThread) (i : Nat),
    Short.findExitThread i (l.map plainCoreTh) = Short.findExitThread i l
  | [], _ => rfl
  | t :: l, i => by
    simp only [List.map_cons, Short.findExitThread, findExitThread_plain l (i + 1)]
    have e : (findExit coreIsExit (Crash.nodes (plainCoreTh t).frames) none).isSome =
        (findExit coreIsExit (Crash.nodes t.frames) none).isSome := by
      rw [Crash.findExit_isSome, Crash.findExit_isSome, show (plainCoreTh t).frames = t.frames.map plainCore from rfl,
        nodes_map, List.any_map]
      rfl
    rw [e]

theorem coreCrashThread_plain (t : CoreTrace) :
    Short.coreCrashThread { t with threads := t.threads.map plainCoreTh } = Short.coreCrashThread t := by
  unfold Short.coreCrashThread
  dsimp only
  cases t.crashThread with
  | some i => rfl
  | none =>
    match t.threads with
    | [] => rfl
    | [_] => rfl
    | a :: b :: l => exact findExitThread_plain (a :: b :: l) 0

theorem listCmp_map {F : Type} (c : F → F → Int) (k : F → F) (h : ∀ f g, c (k f) (k g) = c f g) : ∀ l m : List F,
    listCmp c (l.map k) (m.map k) = listCmp c l m
  | [], [] => rfl
  | [], _ :: _ => rfl
  | _ :: _, [] => rfl
  | f :: l, g :: m => by simp only [List.map_cons, listCmp, h, listCmp_map c k h l m]

theorem framesCmp_plain (l m : List GdbFrame) : Crash.framesCmp (l.map plainGdb) (m.map plainGdb) = Crash.framesCmp l m :=
  listCmp_map (gdbCmp true) plainGdb (fun _ _ => rfl) l m

theorem sameName_plain (n : Str) (t : GdbThread) : Crash.sameName n (plainGdbTh t) = Crash.sameName n t := by
  unfold Crash.sameName plainGdbTh
  cases t.frames <;> rfl

theorem abortSatisfied_plain (r : Crash.Requirement) (t : GdbThread) : Crash.abortSatisfied r (plainGdbTh t) = Crash.abortSatisfied r t := by
  unfold Crash.abortSatisfied
  rw [Crash.findExit_isSome, Crash.findExit_isSome, show (plainGdbTh t).frames = t.frames.map plainGdb from rfl, nodes_map, List.any_map]
  rfl

theorem findLoop_plain (r : Crash.Requirement) (n : Str) : ∀ (l : List GdbThread) (i : Nat) (x : Option (Nat × GdbThread)),
    Crash.findLoop r n i (l.map plainGdbTh) (x.map fun p => (p.1, plainGdbTh p.2)) =
      (Crash.findLoop r n i l x).map fun p => (p.1, plainGdbTh p.2)
  | [], _, _ => rfl
  | t :: l, i, x => by
    simp only [List.map_cons, Crash.findLoop, sameName_plain, abortSatisfied_plain]
    split
    · cases x with
      | none => exact findLoop_plain r n l (i + 1) (some (i, t))
      | some x =>
        simp only [Option.map_some]
        have e : Crash.framesCmp (plainGdbTh t).frames (plainGdbTh x.2).frames = Crash.framesCmp t.frames x.2.frames := framesCmp_plain _ _
        rw [e]
        split
        · rfl
        · split
          · exact findLoop_plain r n l (i + 1) (some (i, t))
          · exact findLoop_plain r n l (i + 1) (some x)
    · exact findLoop_plain r n l (i + 1) x

theorem findTid_plain (tid : Nat) : ∀ (l : List GdbThread) (i : Nat), Crash.findTid tid i (l.map plainGdbTh) = Crash.findTid tid i l
  | [], _ => rfl
  | t :: l, i => by
    simp only [List.map_cons, Crash.findTid, findTid_plain tid l]
    rfl

theorem gdbCrash_plain (t : GdbTrace) (libs : List Sharedlib) :
    Crash.findCrashThread { t with threads := t.threads.map plainGdbTh, crash := t.crash.map plainGdb, libs := libs } =
      Crash.findCrashThread t := by
  have hf : ∀ r, Crash.findFromCrashFrame
      { t with threads := t.threads.map plainGdbTh, crash := t.crash.map plainGdb, libs := libs } r = Crash.findFromCrashFrame t r := by
    intro r
    unfold Crash.findFromCrashFrame
    cases t.crash with
    | none => rfl
    | some f =>
      simp only [Option.map_some, plainGdb]
      cases f.functionName with
      | none => rfl
      | some n =>
        have := findLoop_plain r n t.threads 0 none
        simp only [Option.map_none] at this
        simp only [this, Option.map_map]
        rfl
  unfold Crash.findCrashThread
  simp only [hf, findTid_plain]
  match t.threads with
  | [] => rfl
  | [_] => rfl
  | _ :: _ :: _ => rfl

theorem threadAt_plain {T : Type} (mk : T → List T → Thread) (k : T → T) (h : ∀ t l, plainTh (mk t l) = mk (k t) (l.map k)) (l : List T)
    (i : Option Nat) : threadAt mk (l.map k) i = (threadAt mk l i).map plainTh := by
  cases i with
  | none => rfl
  | some i =>
    simp only [threadAt, ← List.map_drop]
    cases l.drop i with
    | nil => rfl
    | cons t l => exact congrArg some (h t l).symm

theorem findCrashThread_plain (t : Stacktrace) (hc : CrashIn t) :
    ∃ c, findCrashThread t = .ok c ∧ findCrashThread (plain t) = .ok (c.map plainTh) ∧ ∀ th, c = some th → th ∈ allThreads t := by
  obtain ⟨c, h1, h2, -⟩ := C114_crash_thread t hc
  refine ⟨c, h1, ?_, h2⟩
  cases t with
  | core t =>
    change coreCrash t = .ok c at h1
    change coreCrash { t with threads := t.threads.map plainCoreTh } = _
    unfold coreCrash at h1 ⊢
    rw [coreCrashThread_plain]
    cases hk : Short.coreCrashThread t with
    | none => rw [hk] at h1; cases h1; rfl
    | some k =>
      rw [hk] at h1
      have hlt := coreCrashThread_lt hc hk
      simp only [if_pos hlt] at h1
      cases h1
      simp only [List.length_map, if_pos hlt]
      rw [threadAt_plain .core plainCoreTh (fun _ _ => rfl)]
  | gdb t =>
    change Out.ok (threadAt .gdb t.threads (Crash.findCrashThread t)) = .ok c at h1
    cases h1
    change Out.ok (threadAt .gdb (t.threads.map plainGdbTh) (Crash.findCrashThread _)) = _
    rw [gdbCrash_plain, threadAt_plain .gdb plainGdbTh (fun _ _ => rfl)]
  | java t =>
    change Out.ok (firstThread .java t.threads) = .ok c at h1
    cases h1
    change Out.ok (firstThread .java t.threads) = _
    cases t.threads <;> rfl
  | python t => cases h1; rfl
  | koops t => cases h1; rfl
  | ruby t => cases h1; rfl
  | js t => cases h1; rfl

/-! ### Texts -/

theorem shortLoop_map {F : Type} (print : F → Out Str) (k : F → F) (h : ∀ f, print (k f) = print f) (max : Int) : ∀ (l : List F) (i : Nat),
    Short.shortLoop print max i (l.map k) = Short.shortLoop print max i l
  | [], _ => rfl
  | f :: l, i => by simp only [List.map_cons, Short.shortLoop, h, shortLoop_map print k h max l]

theorem crashIn_plain (t : Stacktrace) (h : CrashIn t) : CrashIn (plain t) := by
  cases t with
  | core t =>
    intro i hi
    have := h i hi
    simpa using this
  | _ => trivial

theorem shortText_plain (t : Stacktrace) (hc : CrashIn t) (hg : typeOf t ≠ .gdb) (max : Int) :
    toShortText (plain t) max = toShortText t max := by
  rw [C114_short_text t hc, C114_short_text _ (crashIn_plain t hc)]
  cases t with
  | core t =>
    simp only [plain, shortTextSpec, Short.coreText, Short.coreFrames, coreCrashThread_plain]
    cases Short.coreCrashThread t with
    | none => rfl
    | some i =>
      simp only [Option.map_some, Short.shortText]
      have e : ((t.threads.map plainCoreTh).getD i {}).frames = (t.threads.getD i {}).frames.map plainCore := by
        simp only [List.getD_eq_getElem?_getD, List.getElem?_map]
        cases t.threads[i]? <;> rfl
      rw [e, shortLoop_map Short.coreFrame plainCore (fun f => rfl)]
  | koops t =>
    simp only [plain, shortTextSpec, Short.koopsText, Short.shortText]
    rw [shortLoop_map (fun f => .ok (Short.koopsFrame f)) plainKoops (fun f => rfl)]
  | gdb t => exact absurd rfl hg
  | _ => rfl

theorem reason_plain (t : Stacktrace) : getReason (plain t) = getReason t := by
  rw [C114_reason, C114_reason]
  cases t with
  | koops t =>
    simp only [plain, traceReason, koopsReason]
    have e : Report.nodes (t.frames.map plainKoops) = (Report.nodes t.frames).map (lift plainKoops) := nodes_map _ _
    have hw : WF (Report.nodes t.frames) := Report.nodes_wf _
    have hw' : WF ((Report.nodes t.frames).map (lift plainKoops)) := by rw [← e]; exact Report.nodes_wf _
    rw [e, Koops.normalizeKoops_eq _ hw, Koops.normalizeKoops_eq _ hw', koops_plain]
    simp only [Out.bind_ok, List.head?_map, Option.map_map]
    cases (List.filter (fun n => decide (Koops.Kept n)) (List.map Koops.undotted (Report.nodes t.frames))).head? <;> rfl
  | _ => rfl

theorem sameFrame_plain (f g : Frame) : sameFrame (plainFr f) (plainFr g) = sameFrame f g := by
  cases f <;> cases g <;> rfl

theorem distance_plain (ty : Option Distances.DistType) (t u : Thread) : threadDistance ty (plainTh t) (plainTh u) = threadDistance ty t u := by
  have ht : ∀ th, (plainTh th).type = th.type := by intro th; cases th <;> rfl
  simp only [threadDistance, ht, allFrames_plain]
  exact distance_keep sameFrame plainFr (S := fun _ => True) (fun f g _ _ => sameFrame_plain f g) ty _ _ _ _ (fun _ _ => trivial)
    (fun _ _ => trivial)

/-! ## C142 -/

theorem threads_same {A : Type} {t u : Stacktrace} (h : SameCrash t u) (val : Thread → A) (e : ∀ th ∈ allThreads t, val (plainTh th) = val th)
    (e' : ∀ th ∈ allThreads u, val (plainTh th) = val th) : (allThreads u).map val = (allThreads t).map val := by
  have main : ∀ s : Stacktrace, (∀ th ∈ allThreads s, val (plainTh th) = val th) → (allThreads (plain s)).map val = (allThreads s).map val := by
    intro s hs
    rw [allThreads_plain, List.map_map]
    exact List.map_congr_left hs
  rw [← main t e, ← main u e', h]

theorem identified_same {t u : Stacktrace} (h : SameCrash t u) (hi : ∀ th ∈ allThreads t, ∀ f ∈ allFrames th, Identified f) :
    ∀ th ∈ allThreads u, ∀ f ∈ allFrames th, Identified f := by
  intro th hth f hf
  have h1 : plainTh th ∈ allThreads (plain t) := by
    rw [show plain t = plain u from h, allThreads_plain]
    exact List.mem_map_of_mem hth
  rw [allThreads_plain] at h1
  obtain ⟨th', hth', e⟩ := List.mem_map.mp h1
  have h2 : plainFr f ∈ allFrames (plainTh th') := by
    rw [e, allFrames_plain]
    exact List.mem_map_of_mem hf
  rw [allFrames_plain] at h2
  obtain ⟨f', hf', e'⟩ := List.mem_map.mp h2
  rw [← identified_plain, ← e', identified_plain]
  exact hi th' hth' f' hf'

/-- C142, the hash for duplicates: if all frames can be identified without their addresses, the threads of both stack traces have the
same hashes, with any limit, prefix and flags, and so have the crash threads. -/
theorem C142_duphash_partial (t u : Stacktrace) (h : SameCrash t u) (hi : ∀ th ∈ allThreads t, ∀ f ∈ allFrames th, Identified f)
    (sha1 : Str → Str) (n : Int) (pre : Option Str) (fl : DupFlags) :
    (allThreads u).map (fun th => th.duphash sha1 n pre fl) = (allThreads t).map (fun th => th.duphash sha1 n pre fl) ∧
    (CrashIn t → CrashIn u → ∃ c d, findCrashThread t = .ok c ∧ findCrashThread u = .ok d ∧
      d.map (fun th => th.duphash sha1 n pre fl) = c.map fun th => th.duphash sha1 n pre fl) := by
  have hu := identified_same h hi
  constructor
  · exact threads_same h _ (fun th hth => duphash_plain sha1 th (hi th hth) n pre fl) fun th hth => duphash_plain sha1 th (hu th hth) n pre fl
  · intro ht hu'
    obtain ⟨c, h1, h2, h3⟩ := findCrashThread_plain t ht
    obtain ⟨d, h1', h2', h3'⟩ := findCrashThread_plain u hu'
    refine ⟨c, d, h1, h1', ?_⟩
    rw [show plain u = plain t from h.symm, h2] at h2'
    have e : c.map plainTh = d.map plainTh := Out.ok.inj h2'
    have main : ∀ (o : Option Thread), (∀ th, o = some th → ∀ f ∈ allFrames th, Identified f) →
        o.map (fun th => th.duphash sha1 n pre fl) = (o.map plainTh).map fun th => th.duphash sha1 n pre fl := by
      intro o ho
      cases o with
      | none => rfl
      | some th => exact congrArg some (duphash_plain sha1 th (ho th rfl) n pre fl).symm
    rw [main c fun th e => hi th (h3 th e), main d fun th e => hu th (h3' th e), e]

/-- C142, the crash thread: the threads that are found are equal apart from addresses. -/
theorem C142_crash_thread (t u : Stacktrace) (h : SameCrash t u) (ht : CrashIn t) (hu : CrashIn u) :
    ∃ c d, findCrashThread t = .ok c ∧ findCrashThread u = .ok d ∧ c.map plainTh = d.map plainTh := by
  obtain ⟨c, h1, h2, -⟩ := findCrashThread_plain t ht
  obtain ⟨d, h1', h2', -⟩ := findCrashThread_plain u hu
  rw [show plain u = plain t from h.symm, h2] at h2'
  exact ⟨c, d, h1, h1', Out.ok.inj h2'⟩

/-- C142, the position of the crash thread of core and gdb stack traces. -/
theorem C142_crash_position (t u : CoreTrace) (h : SameCrash (.core t) (.core u)) (t' u' : GdbTrace) (h' : SameCrash (.gdb t') (.gdb u')) :
    Short.coreCrashThread u = Short.coreCrashThread t ∧ Crash.findCrashThread u' = Crash.findCrashThread t' := by
  constructor
  · rw [← coreCrashThread_plain, ← coreCrashThread_plain t]
    exact congrArg Short.coreCrashThread (Stacktrace.core.inj h).symm
  · rw [← gdbCrash_plain u' (u'.libs.map fun l => { l with lo := 0, hi := 0 }),
      ← gdbCrash_plain t' (t'.libs.map fun l => { l with lo := 0, hi := 0 })]
    exact congrArg Crash.findCrashThread (Stacktrace.gdb.inj h').symm

/-- C142, the reason, and the short text except for gdb stack traces. -/
theorem C142_text_partial (t u : Stacktrace) (h : SameCrash t u) :
    getReason u = getReason t ∧
    (CrashIn t → CrashIn u → typeOf t ≠ .gdb → ∀ max, toShortText u max = toShortText t max) := by
  have ty : ∀ s, typeOf (plain s) = typeOf s := by intro s; cases s <;> rfl
  refine ⟨by rw [← reason_plain u, ← reason_plain t, h], fun ht hu hg max => ?_⟩
  have hg' : typeOf u ≠ .gdb := by rw [← ty u, ← h, ty]; exact hg
  rw [← shortText_plain u hu hg', ← shortText_plain t ht hg, h]

/-- C142, distances: in any of the metrics, threads of two crashes have the distance that the threads at the same positions have if both
programs are loaded elsewhere. -/
theorem C142_distance (t u t' u' : Stacktrace) (h : SameCrash t u) (h' : SameCrash t' u') (ty : Option Distances.DistType) :
    ((allThreads u).map fun a => (allThreads u').map fun b => threadDistance ty a b) =
      (allThreads t).map fun a => (allThreads t').map fun b => threadDistance ty a b := by
  have row : ∀ s : Stacktrace, ∀ a, (allThreads s).map (fun b => threadDistance ty a b) =
      (allThreads (plain s)).map fun b => threadDistance ty (plainTh a) b := by
    intro s a
    rw [allThreads_plain, List.map_map]
    exact List.map_congr_left fun b _ => (distance_plain ty a b).symm
  have main : ∀ s s' : Stacktrace, ((allThreads s).map fun a => (allThreads s').map fun b => threadDistance ty a b) =
      (allThreads (plain s)).map fun a => (allThreads (plain s')).map fun b => threadDistance ty a b := by
    intro s s'
    rw [allThreads_plain s, List.map_map]
    exact List.map_congr_left fun a _ => row s' a
  rw [main u u', main t t', h, h']
/-! ### Cases, and where it fails -/

def caseFrame : CoreFrame := { address := 0x7f0000401136, buildId := some c!"88acb6", buildIdOffset := 0x1136, functionName := some c!"_start" }
def caseHere : Stacktrace := .core { threads := [{ frames := [caseFrame] }], crashThread := some 0 }
def caseThere : Stacktrace := .core { threads := [{ frames := [{ caseFrame with address := 0x550000001136 }] }], crashThread := some 0 }

example : SameCrash caseHere caseThere ∧ caseHere ≠ caseThere ∧ CrashIn caseHere ∧ ∀ th ∈ allThreads caseHere, ∀ f ∈ allFrames th, Identified f := by
  refine ⟨by unfold SameCrash; decide +kernel, by decide +kernel, fun i h => ?_, ?_⟩
  · cases h; decide
  · intro th hth f hf
    simp only [caseHere, allThreads, tails, List.mem_singleton] at hth
    subst hth
    simp only [allFrames, frameTails, List.mem_singleton] at hf
    subst hf
    exact .inl (by decide)

/-- C142 fails for the hash of the whole stack trace, which contains the addresses. -/
theorem C142_not_bthash : ∃ t u : Stacktrace, SameCrash t u ∧ (∀ th ∈ allThreads t, ∀ f ∈ allFrames th, Identified f) ∧
    ∀ sha1, getBthash sha1 t true ≠ getBthash sha1 u true := by
  refine ⟨caseHere, caseThere, by unfold SameCrash; decide +kernel, ?_, ?_⟩
  · intro th hth f hf
    simp only [caseHere, allThreads, tails, List.mem_singleton] at hth
    subst hth
    simp only [allFrames, frameTails, List.mem_singleton] at hf
    subst hf
    exact .inl (by decide)
  · intro sha1
    rw [(C114_bthash sha1 _).1, (C114_bthash sha1 _).1]
    intro e
    exact absurd (Out.ok.inj e) (by decide +kernel)

/-- C142 fails for frames that have nothing but an address: of a core dump, and of an oops. -/
theorem C142_not_unidentified :
    (∃ t u : CoreThread, SameCrash (.core { threads := [t] }) (.core { threads := [u] }) ∧ ∀ sha1,
      (Thread.core t []).duphash sha1 0 none { nohash := true } ≠ (Thread.core u []).duphash sha1 0 none { nohash := true }) ∧
    ∃ t u : KoopsTrace, SameCrash (.koops t) (.koops u) ∧ ∀ sha1,
      (Thread.koops t).duphash sha1 0 none { nohash := true } ≠ (Thread.koops u).duphash sha1 0 none { nohash := true } := by
  have dup : ∀ (sha1 : Str → Str) (t : Hash.Thread), Hash.duphash sha1 t 0 none { nohash := true } = Hash.duphash id t 0 none { nohash := true } := by
    intro sha1 t
    simp only [Hash.duphash, Bool.false_eq_true, if_false]
    cases t.normalize <;> rfl
  refine ⟨⟨{ frames := [{ address := 4096 }] }, { frames := [{ address := 8192 }] }, by unfold SameCrash; decide +kernel, fun sha1 => ?_⟩,
    { frames := [{ address := 4096 }] }, { frames := [{ address := 8192 }] }, rfl, fun sha1 => ?_⟩
  · rw [C114_duphash, C114_duphash]
    simp only [dup sha1]
    decide +kernel
  · rw [C114_duphash, C114_duphash]
    simp only [dup sha1]
    decide +kernel

end Satyr.Generic
