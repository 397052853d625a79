import Verif.Json.CoreModel
import Verif.Json.Lemmas
/-!
# C40: the JSON form of core stack traces
-/
namespace Satyr.Json.Core
open Satyr.CStr Satyr.Frames Satyr.Normalize

/-! ## Specification: what is read back -/

/-- What a 64-bit number becomes: the unknown value is left out and stays unknown, other values saturate at 2^63 - 1. -/
def keep64 (n : Nat) : Nat := if n = ulongMax then n else min n (2 ^ 63 - 1)

/-- What a frame becomes. -/
def keepFrame (f : CoreFrame) : CoreFrame :=
  { f with address := keep64 f.address, buildIdOffset := keep64 f.buildIdOffset,
           fingerprintHashed := f.fingerprintHashed || f.fingerprint.isNone }

/-- What a thread becomes; the member `id` is not written. -/
def keepThread (t : CoreThread) : CoreThread := { id := 0, frames := t.frames.map keepFrame }

/-- What the crash thread becomes: if it is unknown the first thread is marked; a mark is only written on a thread with
frames. -/
def keepCrash (t : CoreTrace) : Option Nat :=
  let k := t.crashThread.getD 0
  match t.threads[k]? with
  | some th => if th.frames = [] then none else some k
  | none => none

/-- What a stack trace becomes. -/
def keep (t : CoreTrace) : CoreTrace :=
  { t with threads := t.threads.map keepThread, crashThread := keepCrash t }

/-! ## Frames -/

def frameVals (f : CoreFrame) : List (Str × Value) :=
  (if f.address ≠ ulongMax then [(c!"address", .num f.address)] else []) ++
  (strVal c!"build_id" f.buildId ++
  ((if f.buildIdOffset ≠ ulongMax then [(c!"build_id_offset", .num f.buildIdOffset)] else []) ++
  (strVal c!"function_name" f.functionName ++
  (strVal c!"file_name" f.fileName ++
  (strVal c!"fingerprint" f.fingerprint ++
  (if f.fingerprint ≠ none ∧ f.fingerprintHashed = false then [(c!"fingerprint_hashed", .bool false)] else []))))))

theorem frame_body (f : CoreFrame) : Body (frameVals f) (frameBody f) := by
  refine Body.append (Body.ite (fun _ => Body.numMember 100 (by decide) rfl _) fun _ => Body.nil) ?_
  refine Body.append (Body.strMember 100 (by decide) rfl _) ?_
  refine Body.append (Body.ite (fun _ => Body.numMember 100 (by decide) rfl _) fun _ => Body.nil) ?_
  refine Body.append (Body.strMember 100 (by decide) rfl _) ?_
  refine Body.append (Body.strMember 100 (by decide) rfl _) ?_
  refine Body.append (Body.strMember 100 (by decide) rfl _) ?_
  exact Body.ite (fun _ => Body.one (name := c!",   \"fingerprint_hashed\":") (t := c!" false\n") 100 (by decide) rfl
    (rend_lit 100 (by decide))) fun _ => Body.nil

theorem frame_rend (f : CoreFrame) : Rend (toks (.obj (frameVals f))) (frameToJson f) := by
  have h := frame_body f
  unfold frameToJson
  by_cases hb : frameBody f = []
  · rw [if_neg (by simp [hb]), h.2.1.2 hb]
    exact rend_lit 100 (by decide)
  · rw [if_pos hb]
    have := h.object (fun e => hb (h.2.1.1 e)) [] rfl
    simpa using this

theorem frame_read (f : CoreFrame) : frameFromJson (.obj (frameVals f)) = some (keepFrame f) := by
  have g1 : readU64 (.obj (frameVals f)) c!"address" newFrame.address = some (keep64 f.address) := by
    have : get (.obj (frameVals f)) c!"address" = if f.address ≠ ulongMax then some (.num f.address) else none := by
      json_get frameVals
    rw [readU64, this, keep64]
    by_cases h : f.address = ulongMax
    · simp [h, newFrame]
    · simp only [h, ne_eq, not_false_eq_true, if_true, if_false]; rw [toUnsigned64]
  have g2 : readStr (.obj (frameVals f)) c!"build_id" newFrame.buildId = some f.buildId := by
    have : get (.obj (frameVals f)) c!"build_id" = f.buildId.map Value.str := by
      json_get frameVals
    exact readStr_of this
  have g3 : readU64 (.obj (frameVals f)) c!"build_id_offset" newFrame.buildIdOffset = some (keep64 f.buildIdOffset) := by
    have : get (.obj (frameVals f)) c!"build_id_offset" =
        if f.buildIdOffset ≠ ulongMax then some (.num f.buildIdOffset) else none := by
      json_get frameVals
    rw [readU64, this, keep64]
    by_cases h : f.buildIdOffset = ulongMax
    · simp [h, newFrame]
    · simp only [h, ne_eq, not_false_eq_true, if_true, if_false]; rw [toUnsigned64]
  have g4 : readStr (.obj (frameVals f)) c!"function_name" newFrame.functionName = some f.functionName := by
    have : get (.obj (frameVals f)) c!"function_name" = f.functionName.map Value.str := by
      json_get frameVals
    exact readStr_of this
  have g5 : readStr (.obj (frameVals f)) c!"file_name" newFrame.fileName = some f.fileName := by
    have : get (.obj (frameVals f)) c!"file_name" = f.fileName.map Value.str := by
      json_get frameVals
    exact readStr_of this
  have g6 : readStr (.obj (frameVals f)) c!"fingerprint" newFrame.fingerprint = some f.fingerprint := by
    have : get (.obj (frameVals f)) c!"fingerprint" = f.fingerprint.map Value.str := by
      json_get frameVals
    exact readStr_of this
  have g7 : readBool (.obj (frameVals f)) c!"fingerprint_hashed" newFrame.fingerprintHashed =
      some (f.fingerprintHashed || f.fingerprint.isNone) := by
    have : get (.obj (frameVals f)) c!"fingerprint_hashed" =
        if f.fingerprint ≠ none ∧ f.fingerprintHashed = false then some (.bool false) else none := by
      json_get frameVals
    rw [readBool, this]
    cases f.fingerprint <;> cases f.fingerprintHashed <;> simp [newFrame]
  rw [frameFromJson, if_neg (by simp [isObject]), g1, g2, g3, g4, g5, g6, g7]
  rfl

/-! ## Threads -/

def threadVals (t : CoreThread) (m : Bool) : List (Str × Value) :=
  if t.frames ≠ [] then
    (if m then [(c!"crash_thread", .bool true)] else []) ++ [(c!"frames", .arr (t.frames.map fun f => .obj (frameVals f)))]
  else []

theorem frames_rend (l : List CoreFrame) (h : l ≠ []) :
    Rend (toks (.arr (l.map fun f => .obj (frameVals f)))) (arrayText (l.map frameToJson)) :=
  rend_array _ _ _ h fun f _ => frame_rend f

theorem thread_rend (t : CoreThread) (m : Bool) : Rend (toks (.obj (threadVals t m))) (threadToJson t m) := by
  unfold threadVals threadToJson
  by_cases h : t.frames = []
  · rw [if_neg (by simp [h]), if_neg (by simp [h])]
    exact rend_lit 100 (by decide)
  · rw [if_pos h, if_pos h]
    have hf : Body [(c!"frames", .arr (t.frames.map fun f => .obj (frameVals f)))]
        (c!",   \"frames\":\n" ++ arrayText (t.frames.map frameToJson)) :=
      Body.one 100 (by decide) rfl (frames_rend _ h)
    cases m with
    | false =>
      have := hf.object (by simp) [] rfl
      simpa using this
    | true =>
      have hm : Body [(c!"crash_thread", .bool true)] c!",   \"crash_thread\": true\n" :=
        Body.one (name := c!",   \"crash_thread\":") (t := c!" true\n") 100 (by decide) rfl (rend_lit 100 (by decide))
      have := (hm.append hf).object (by simp) [] rfl
      simpa using this

theorem thread_read (t : CoreThread) (m : Bool) :
    markedFromJson (.obj (threadVals t m)) = some (keepThread t, m && !t.frames.isEmpty) := by
  have g1 : get (.obj (threadVals t m)) c!"frames" =
      if t.frames ≠ [] then some (.arr (t.frames.map fun f => .obj (frameVals f))) else none := by
    simp [threadVals, get_obj_append, get_ite, get_obj_one, get_obj_nil]
  have g2 : get (.obj (threadVals t m)) c!"crash_thread" = if t.frames ≠ [] ∧ m = true then some (.bool true) else none := by
    by_cases h : t.frames = [] <;> simp [threadVals, h, get_obj_append, get_ite, get_obj_one, get_obj_nil]
  have g3 : readMark (.obj (threadVals t m)) = some (m && !t.frames.isEmpty) := by
    rw [readMark, g2]
    cases hf : t.frames <;> cases m <;> simp
  have g4 : threadFromJson (.obj (threadVals t m)) = some (keepThread t) := by
    rw [threadFromJson, if_neg (by simp [isObject]), readArray, g1]
    by_cases h : t.frames = []
    · simp [h, keepThread]
    · simp only [h, ne_eq, not_false_eq_true, if_true]
      rw [readAll_map (α := CoreFrame) _ _ keepFrame _ fun f _ => frame_read f]
      rfl
  rw [markedFromJson, g4, g3]
  rfl

/-! ## Stack traces -/

theorem lastMarked_none {l : List Bool} (h : ∀ b ∈ l, b = false) : lastMarked l = none := by
  induction l with
  | nil => rfl
  | cons b l ih => rw [lastMarked, ih fun x hx => h x (by simp [hx]), h b (by simp)]; rfl

theorem lastMarked_only {l : List Bool} (k : Nat) (h : ∀ i (hi : i < l.length), l[i] = true → i = k) :
    lastMarked l = if l[k]? = some true then some k else none := by
  induction l generalizing k with
  | nil => simp [lastMarked]
  | cons b l ih =>
    cases k with
    | zero =>
      have hn : lastMarked l = none := by
        apply lastMarked_none
        intro x hx
        obtain ⟨i, hi, rfl⟩ := List.mem_iff_getElem.1 hx
        cases hv : l[i] with
        | false => rfl
        | true => exact absurd (h (i + 1) (by simpa using hi) (by simpa using hv)) (by omega)
      rw [lastMarked, hn]
      simp
    | succ k =>
      have hb : b = false := by
        cases hv : b with
        | false => rfl
        | true => exact absurd (h 0 (by simp) (by simpa using hv)) (by omega)
      have := ih k fun i hi hv => by
        have := h (i + 1) (by simpa using hi) (by simpa using hv)
        omega
      rw [lastMarked, this, hb, List.getElem?_cons_succ]
      by_cases hc : l[k]? = some true <;> simp [hc]

theorem keepCrash_eq (t : CoreTrace) :
    lastMarked (t.threads.zipIdx.map fun p => marked t.crashThread p.2 && !p.1.frames.isEmpty) = keepCrash t := by
  have hm : ∀ i, marked t.crashThread i = true ↔ i = t.crashThread.getD 0 := by
    intro i
    cases t.crashThread with
    | none => simp [marked]
    | some k => simp only [marked, Option.getD_some, beq_iff_eq, Bool.or_eq_true, Option.some.injEq, reduceCtorEq, Bool.and_eq_true, false_and, or_false]; exact eq_comm
  rw [lastMarked_only (t.crashThread.getD 0)]
  · unfold keepCrash
    dsimp only
    rw [List.getElem?_map, List.getElem?_zipIdx]
    cases hx : t.threads[t.crashThread.getD 0]? with
    | none => simp
    | some th =>
      have := (hm (t.crashThread.getD 0)).2 rfl
      cases hf : th.frames <;> simp [this, hf]
  · intro i hi hv
    simp only [List.getElem_map, List.getElem_zipIdx, Bool.and_eq_true, Nat.zero_add] at hv
    exact (hm i).1 hv.1

def traceVals (t : CoreTrace) : List (Str × Value) :=
  [(c!"signal", .num t.signal)] ++
  (strVal c!"executable" t.executable ++
  ((if t.onlyCrashThread then [(c!"only_crash_thread", .bool true)] else []) ++
  [(c!"stacktrace", .arr (t.threads.zipIdx.map fun p => .obj (threadVals p.1 (marked t.crashThread p.2))))]))

theorem trace_rend (t : CoreTrace) (h : t.threads ≠ []) : Rend (toks (.obj (traceVals t))) (toJson t) := by
  have hb : Body (traceVals t) (numMember c!",   \"signal\": " t.signal ++
      (strMember c!",   \"executable\": " t.executable ++
      ((if t.onlyCrashThread then c!",   \"only_crash_thread\": true\n" else []) ++
      (c!",   \"stacktrace\":\n" ++
      arrayText (threadTexts t.crashThread t.threads))))) := by
    refine Body.append (Body.numMember 100 (by decide) rfl _) ?_
    refine Body.append (Body.strMember 100 (by decide) rfl _) ?_
    refine Body.append (Body.ite (fun _ => Body.one (name := c!",   \"only_crash_thread\":") (t := c!" true\n") 100
      (by decide) rfl (rend_lit 100 (by decide))) fun _ => Body.nil) ?_
    refine Body.one 100 (by decide) rfl ?_
    refine rend_array (fun p : CoreThread × Nat => Value.obj (threadVals p.1 (marked t.crashThread p.2))) _ _ ?_
      fun p _ => thread_rend _ _
    simpa using h
  have := hb.object (by simp [traceVals]) [] rfl
  simpa [toJson, numMember] using this

theorem trace_read (t : CoreTrace) (hs : t.signal < 2 ^ 16) : fromJson (.obj (traceVals t)) = some (keep t) := by
  have g1 : readU16 (.obj (traceVals t)) c!"signal" 0 = some t.signal := by
    have : get (.obj (traceVals t)) c!"signal" = some (.num t.signal) := by
      json_get traceVals
    exact readU16_of 0 hs this
  have g2 : readStr (.obj (traceVals t)) c!"executable" none = some t.executable := by
    have : get (.obj (traceVals t)) c!"executable" = t.executable.map Value.str := by
      json_get traceVals
    exact readStr_of this
  have g3 : readBool (.obj (traceVals t)) c!"only_crash_thread" false = some t.onlyCrashThread := by
    have : get (.obj (traceVals t)) c!"only_crash_thread" = if t.onlyCrashThread = true then some (.bool true) else none := by
      json_get traceVals
    rw [readBool, this]
    cases t.onlyCrashThread <;> rfl
  have g4 : readArray (.obj (traceVals t)) c!"stacktrace" markedFromJson =
      some (t.threads.zipIdx.map fun p => (keepThread p.1, marked t.crashThread p.2 && !p.1.frames.isEmpty)) := by
    have : get (.obj (traceVals t)) c!"stacktrace" =
        some (.arr (t.threads.zipIdx.map fun p => .obj (threadVals p.1 (marked t.crashThread p.2)))) := by
      json_get traceVals
    rw [readArray, this]
    dsimp only
    generalize t.threads.zipIdx = l
    induction l with
    | nil => rfl
    | cons p l ih => rw [List.map_cons, readAll, thread_read, ih]; rfl
  rw [fromJson, if_neg (by simp [isObject]), g1, g2, g3, g4]
  simp only [Option.bind_some, List.map_map]
  have e1 : List.map (Prod.fst ∘ fun p : CoreThread × Nat => (keepThread p.1, marked t.crashThread p.2 && !p.1.frames.isEmpty))
      t.threads.zipIdx = t.threads.map keepThread := by
    have : (Prod.fst ∘ fun p : CoreThread × Nat => (keepThread p.1, marked t.crashThread p.2 && !p.1.frames.isEmpty)) =
      keepThread ∘ Prod.fst := rfl
    rw [this, ← List.map_map, List.zipIdx_map_fst]
  have e2 := keepCrash_eq t
  rw [e1, keep, ← e2]
  rfl

/-- C40: what is written for a core stack trace with at least one thread is a JSON document from which the same stack trace
is read, except for the differences described by `keep`: numbers of 64 bits saturate, the crash thread is the first one if it
was unknown, it is lost if it has no frames, and the identifiers of the threads are lost. -/
theorem C40_read_back (t : CoreTrace) (h : t.threads ≠ []) (hs : t.signal < 2 ^ 16) :
    (parse (toJson t)).bind fromJson = some (keep t) := by
  rw [parse_toks (trace_rend t h)]
  exact trace_read t hs

/-- The numbers of a frame are unknown or below 2^63, and the fingerprint is marked as not hashed only if there is one. -/
def FrameWF (f : CoreFrame) : Prop :=
  (f.address = ulongMax ∨ f.address < 2 ^ 63) ∧ (f.buildIdOffset = ulongMax ∨ f.buildIdOffset < 2 ^ 63) ∧
  (f.fingerprint = none → f.fingerprintHashed = true)

/-- The stack traces that survive: there is a thread, the crash thread is known, belongs to the stack trace and has frames,
the identifiers of the threads are not set. -/
def WF (t : CoreTrace) : Prop :=
  t.signal < 2 ^ 16 ∧ (∃ k th, t.crashThread = some k ∧ t.threads[k]? = some th ∧ th.frames ≠ []) ∧
  ∀ th ∈ t.threads, th.id = 0 ∧ ∀ f ∈ th.frames, FrameWF f

theorem keep64_of {n : Nat} (h : n = ulongMax ∨ n < 2 ^ 63) : keep64 n = n := by
  unfold keep64 ulongMax at *
  split
  · rfl
  · omega

theorem keepFrame_of {f : CoreFrame} (h : FrameWF f) : keepFrame f = f := by
  obtain ⟨h1, h2, h3⟩ := h
  unfold keepFrame
  rw [keep64_of h1, keep64_of h2]
  cases f with
  | mk a b c d e fp hd =>
    cases fp with
    | none =>
      have : hd = true := h3 rfl
      subst this
      rfl
    | some s => cases hd <;> rfl

/-- C40: a core stack trace whose crash thread is known and has frames, with numbers below 2^63, is read back unchanged. -/
theorem C40_round_trip_partial (t : CoreTrace) (h : WF t) : (parse (toJson t)).bind fromJson = some t := by
  obtain ⟨hs, ⟨k, th, hk, hth, hf⟩, ht⟩ := h
  have hne : t.threads ≠ [] := by intro e; rw [e] at hth; simp at hth
  rw [C40_read_back t hne hs]
  have e1 : t.threads.map keepThread = t.threads := by
    conv_rhs => rw [← List.map_id t.threads]
    apply List.map_congr_left
    intro x hx
    obtain ⟨h1, h2⟩ := ht x hx
    have : x.frames.map keepFrame = x.frames := by
      conv_rhs => rw [← List.map_id x.frames]
      exact List.map_congr_left fun f hf => keepFrame_of (h2 f hf)
    unfold keepThread
    rw [this, ← h1]
    rfl
  have e2 : keepCrash t = t.crashThread := by
    unfold keepCrash
    rw [hk, Option.getD_some]
    dsimp only
    rw [hth]
    exact if_neg hf
  rw [keep, e1, e2]

/-- A stack trace with two threads, the second of which crashed. -/
def exampleTrace : CoreTrace :=
  { signal := 11, executable := some c!"/usr/bin/\"x\"", crashThread := some 1, onlyCrashThread := true
    threads := [{ frames := [{ newFrame with address := 4096, functionName := some c!"main" }] },
                { frames := [{ newFrame with fingerprint := some c!"abc", fingerprintHashed := false }, newFrame] }] }

example : WF exampleTrace := by
  refine ⟨by decide, ⟨1, _, rfl, rfl, by simp⟩, ?_⟩
  intro th hth
  simp only [exampleTrace, List.mem_cons, List.not_mem_nil, or_false] at hth
  rcases hth with rfl | rfl
  · exact ⟨rfl, by simp [FrameWF, newFrame]⟩
  · exact ⟨rfl, by simp [FrameWF, newFrame]⟩

/-- Not every stack trace survives: without threads, no valid JSON is written. -/
theorem C40_not_without_threads : parse (toJson {}) = none := by decide +kernel

/-- Not every stack trace survives: an unknown crash thread becomes the first one. -/
theorem C40_not_unknown_crash_thread :
    (parse (toJson { threads := [{ frames := [newFrame] }] })).bind fromJson =
      some { threads := [{ frames := [newFrame] }], crashThread := some 0 } :=
  C40_read_back _ (by simp) (by decide)

/-- Not every stack trace survives: the mark of a crash thread without frames is lost. -/
theorem C40_not_empty_crash_thread :
    (parse (toJson { threads := [{}], crashThread := some 0 })).bind fromJson = some { threads := [{}] } :=
  C40_read_back _ (by simp) (by decide)

/-- Not every stack trace survives: an address of 2^63 or more becomes 2^63 - 1. -/
theorem C40_not_high_address :
    (parse (toJson { threads := [{ frames := [{ newFrame with address := 0xffffffffff600000 }] }], crashThread := some 0 })).bind
        fromJson =
      some { threads := [{ frames := [{ newFrame with address := 0x7fffffffffffffff }] }], crashThread := some 0 } :=
  C40_read_back _ (by simp) (by decide)

end Satyr.Json.Core
