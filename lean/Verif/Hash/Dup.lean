import Verif.Hash.Model
import Verif.Normalize.Pipeline
/-!
# The duplication hash depends only on the leading frames (C19)
-/
namespace Satyr.Hash
open Satyr Satyr.CStr Satyr.Frames Satyr.Normalize Satyr.Threads Satyr.Koops

/-! ## Specification -/

/-- What each frame contributes to the text, in order. -/
def contributions (fl : DupFlags) : Thread → List Str
  | .gdb t => t.map fun n => gdbDup n.val
  | .core t => t.map fun n => coreDup n.val
  | .koops t => t.map fun n => koopsDup fl n.val
  | .python t => t.map fun n => pythonDup n.val
  | .java t => t.map fun n => javaDup n.val
  | .ruby t => t.map fun n => rubyDup n.val
  | .js t => t.map fun n => jsDup n.val

/-- The first `n` frames that contribute anything; 0 stands for the largest `int`, negative limits admit no frame. -/
def leading (fl : DupFlags) (n : Int) (t : Thread) : List Str :=
  ((contributions fl t).filter fun s => !s.isEmpty).take (if n = 0 then 2 ^ 31 - 1 else n.toNat)

/-- The hashed text for prefix, flags and contributions of the frames. -/
def dupText (pre : Option Str) (fl : DupFlags) (texts : List Str) : Str :=
  pre.getD [] ++ (if fl.koopsCompat then [] else c!"Thread\n") ++ texts.flatten

/-- The value returned for a hashed text. -/
def finish (sha1 : Str → Str) (fl : DupFlags) (text : Str) : Option Str :=
  if fl.koopsCompat = true ∧ text = [] then none else if fl.nohash then some text else some (sha1 text)

/-! ## Proofs -/

theorem dupLoop_eq {F : Type} (text : F → Str) : ∀ (t : List (Node F)) (n : Int) (buf : Str),
    dupLoop text n t buf = buf ++ (((t.map fun f => text f.val).filter fun s => !s.isEmpty).take n.toNat).flatten
  | [], _, buf => by simp [dupLoop]
  | f :: rest, n, buf => by
    unfold dupLoop
    by_cases hn : n > 0
    · rw [if_pos hn]
      simp only
      rw [dupLoop_eq text rest]
      cases h : text f.val with
      | nil => simp [h]
      | cons c cs =>
        obtain ⟨k, hk⟩ : ∃ k, n.toNat = k + 1 := ⟨n.toNat - 1, by omega⟩
        have hk' : (n - 1).toNat = k := by omega
        simp [h, hk, hk']
    · rw [if_neg hn]
      have : n.toNat = 0 := by omega
      simp [this]

theorem Thread.dupLoop_eq (fl : DupFlags) (n : Int) (buf : Str) (t : Thread) :
    t.dupLoop fl (if n = 0 then 2147483647 else n) buf = buf ++ (leading fl n t).flatten := by
  have hn : (if n = 0 then (2147483647 : Int) else n).toNat = if n = 0 then 2 ^ 31 - 1 else n.toNat := by
    split <;> rfl
  cases t <;> simp only [Thread.dupLoop, Hash.dupLoop_eq, leading, contributions, hn]

theorem normalize_ok (t : Thread) (h : t.WF) : ∃ t', t.normalize = .ok t' := by
  cases t with
  | gdb t => exact ⟨_, by rw [Thread.normalize, normalizeGdb_eq t h]; rfl⟩
  | core t => exact ⟨_, by rw [Thread.normalize, normalizeCore_eq t h]; rfl⟩
  | koops t => exact ⟨_, by rw [Thread.normalize, normalizeKoops_eq t h]; rfl⟩
  | python t => exact ⟨_, rfl⟩
  | java t => exact ⟨_, rfl⟩
  | ruby t => exact ⟨_, rfl⟩
  | js t => exact ⟨_, rfl⟩

theorem duphash_of (sha1 : Str → Str) (t t' : Thread) (n : Int) (pre : Option Str) (fl : DupFlags)
    (h : (if fl.noNormalize then Out.ok t else t.normalize) = .ok t') :
    duphash sha1 t n pre fl = .ok (finish sha1 fl (dupText pre fl (leading fl n t'))) := by
  unfold duphash
  rw [h]
  change duphashOf sha1 t' n pre fl = _
  unfold duphashOf
  simp only [Thread.dupLoop_eq]
  change (if (fl.koopsCompat && (dupText pre fl (leading fl n t')).isEmpty) = true then Out.ok none
    else if fl.nohash = true then Out.ok (some (dupText pre fl (leading fl n t')))
    else Out.ok (some (sha1 (dupText pre fl (leading fl n t'))))) = _
  unfold finish
  simp only [Bool.and_eq_true, List.isEmpty_iff]
  split
  · rfl
  · split <;> rfl

/-- C19 without normalization: the value is determined by prefix, flags and leading frames. -/
theorem C19_plain (sha1 : Str → Str) (t : Thread) (n : Int) (pre : Option Str) (fl : DupFlags)
    (h : fl.noNormalize = true) :
    duphash sha1 t n pre fl = .ok (finish sha1 fl (dupText pre fl (leading fl n t))) :=
  duphash_of sha1 t t n pre fl (by simp [h])

/-- C19 with normalization: the value is determined by prefix, flags and leading frames of the normalized thread. -/
theorem C19_normalized (sha1 : Str → Str) (t : Thread) (n : Int) (pre : Option Str) (fl : DupFlags)
    (h : fl.noNormalize = false) (hw : t.WF) : ∃ t', t.normalize = .ok t' ∧
    duphash sha1 t n pre fl = .ok (finish sha1 fl (dupText pre fl (leading fl n t'))) := by
  obtain ⟨t', ht⟩ := normalize_ok t hw
  exact ⟨t', ht, duphash_of sha1 t t' n pre fl (by simp [h, ht])⟩

/-- C19: two threads whose normalized forms have the same leading frames have the same hash, whatever else differs. -/
theorem C19_depends_only (sha1 : Str → Str) (t u t' u' : Thread) (n : Int) (pre : Option Str) (fl : DupFlags)
    (ht : t.normalize = .ok t') (hu : u.normalize = .ok u') (h : fl.noNormalize = false)
    (hl : leading fl n t' = leading fl n u') : duphash sha1 t n pre fl = duphash sha1 u n pre fl := by
  rw [duphash_of sha1 t t' n pre fl (by simp [h, ht]), duphash_of sha1 u u' n pre fl (by simp [h, hu]), hl]

/-- C19: the hash of a thread is the hash of its normalized form taken as it is. -/
theorem C19_removed_frames (sha1 : Str → Str) (t t' : Thread) (n : Int) (pre : Option Str) (fl : DupFlags)
    (ht : t.normalize = .ok t') (h : fl.noNormalize = false) :
    duphash sha1 t n pre fl = duphash sha1 t' n pre { fl with noNormalize := true } := by
  rw [duphash_of sha1 t t' n pre fl (by simp [h, ht]), duphash_of sha1 t' t' n pre _ (by simp)]
  have : leading { fl with noNormalize := true } n t' = leading fl n t' := by
    cases t' <;> rfl
  rw [this]; rfl

/-- C19: once enough frames contribute, further frames at the end do not matter. -/
theorem C19_beyond_limit (fl : DupFlags) (n : Int) (t u : Thread) (more : List Str) (hn : 0 < n)
    (h : n.toNat ≤ ((contributions fl t).filter fun s => !s.isEmpty).length)
    (hu : contributions fl u = contributions fl t ++ more) : leading fl n u = leading fl n t := by
  unfold leading
  rw [hu, List.filter_append, if_neg (by omega), List.take_append_of_le_length h]

theorem contributions_of_key {F K : Type} {text : F → Str} (key : F → K) (h : ∀ f g, key f = key g → text f = text g) :
    ∀ (t u : List (Node F)), (t.map fun n => key n.val) = (u.map fun n => key n.val) →
    (t.map fun n => text n.val) = (u.map fun n => text n.val)
  | [], [], _ => rfl
  | [], _ :: _, h' => by simp at h'
  | _ :: _, [], h' => by simp at h'
  | a :: t, b :: u, h' => by
    simp only [List.map_cons, List.cons.injEq] at h' ⊢
    exact ⟨h _ _ h'.1, contributions_of_key key h t u h'.2⟩

/-- C19 for GDB threads: only function type, function name and the signal handler mark of the frames matter. -/
theorem C19_gdb_attributes (fl : DupFlags) (t u : List (Node GdbFrame))
    (h : (t.map fun n => (n.val.functionType, n.val.functionName, n.val.signalHandlerCalled)) =
      u.map fun n => (n.val.functionType, n.val.functionName, n.val.signalHandlerCalled)) :
    contributions fl (.gdb t) = contributions fl (.gdb u) :=
  contributions_of_key (fun f : GdbFrame => (f.functionType, f.functionName, f.signalHandlerCalled))
    (fun f g e => by simp only [Prod.mk.injEq] at e; simp only [gdbDup, e.1, e.2.1, e.2.2]) t u h

/-- The attributes of a core frame that identify it: build id and offset, or else the function name, or else the
fingerprint and offset, or else the address. -/
def coreIdent (f : CoreFrame) : Str × Nat × Nat :=
  match f.buildId, f.functionName, f.fingerprint with
  | some b, _, _ => (b, f.buildIdOffset, 0)
  | none, some n, _ => (n, 0, 1)
  | none, none, some p => (p, f.buildIdOffset, 2)
  | none, none, none => ([], f.address, 3)

/-- C19 for core threads: only the identifying attributes matter. -/
theorem C19_core_attributes (fl : DupFlags) (t u : List (Node CoreFrame))
    (h : (t.map fun n => coreIdent n.val) = u.map fun n => coreIdent n.val) :
    contributions fl (.core t) = contributions fl (.core u) :=
  contributions_of_key coreIdent (fun f g => by
    unfold coreIdent coreDup
    cases f.buildId <;> cases f.functionName <;> cases f.fingerprint <;>
      cases g.buildId <;> cases g.functionName <;> cases g.fingerprint <;> simp <;> intros <;> simp_all) t u h

/-- C19 for kernel oopses: only the function name, the address of nameless frames and, in the compatible mode, the
reliability matter. -/
theorem C19_koops_attributes (fl : DupFlags) (t u : List (Node KoopsFrame))
    (h : (t.map fun n => (fl.koopsCompat && n.val.reliable, n.val.functionName, n.val.functionName.elim n.val.address fun _ => 0)) =
      u.map fun n => (fl.koopsCompat && n.val.reliable, n.val.functionName, n.val.functionName.elim n.val.address fun _ => 0)) :
    contributions fl (.koops t) = contributions fl (.koops u) :=
  contributions_of_key
    (fun f : KoopsFrame => (fl.koopsCompat && f.reliable, f.functionName, f.functionName.elim f.address fun _ => 0))
    (fun f g => by
      unfold koopsDup
      cases fl.koopsCompat <;> cases f.functionName <;> cases g.functionName <;> simp <;> intros <;> simp_all) t u h

/-- C19 for Python: only file and line of the frames matter. -/
theorem C19_python_attributes (fl : DupFlags) (t u : List (Node PythonFrame))
    (h : (t.map fun n => (n.val.fileName, n.val.fileLine)) = u.map fun n => (n.val.fileName, n.val.fileLine)) :
    contributions fl (.python t) = contributions fl (.python u) :=
  contributions_of_key (fun f : PythonFrame => (f.fileName, f.fileLine))
    (fun f g e => by simp only [Prod.mk.injEq] at e; simp only [pythonDup, e.1, e.2]) t u h

/-- C19 for Ruby: only file and line of the frames matter. -/
theorem C19_ruby_attributes (fl : DupFlags) (t u : List (Node RubyFrame))
    (h : (t.map fun n => (n.val.fileName, n.val.fileLine)) = u.map fun n => (n.val.fileName, n.val.fileLine)) :
    contributions fl (.ruby t) = contributions fl (.ruby u) :=
  contributions_of_key (fun f : RubyFrame => (f.fileName, f.fileLine))
    (fun f g e => by simp only [Prod.mk.injEq] at e; simp only [rubyDup, e.1, e.2]) t u h

/-- C19 for JavaScript: only file and line of the frames matter. -/
theorem C19_js_attributes (fl : DupFlags) (t u : List (Node JsFrame))
    (h : (t.map fun n => (n.val.fileName, n.val.fileLine)) = u.map fun n => (n.val.fileName, n.val.fileLine)) :
    contributions fl (.js t) = contributions fl (.js u) :=
  contributions_of_key (fun f : JsFrame => (f.fileName, f.fileLine))
    (fun f g e => by simp only [Prod.mk.injEq] at e; simp only [jsDup, e.1, e.2]) t u h

/-- C19 for Java: only the name matters, or else class path, file and line. -/
theorem C19_java_attributes (fl : DupFlags) (t u : List (Node JavaFrame))
    (h : (t.map fun n => n.val.name.elim (Sum.inr (n.val.classPath, n.val.fileName, n.val.fileLine)) Sum.inl) =
      u.map fun n => n.val.name.elim (Sum.inr (n.val.classPath, n.val.fileName, n.val.fileLine)) Sum.inl) :
    contributions fl (.java t) = contributions fl (.java u) :=
  contributions_of_key
    (fun f : JavaFrame => (f.name.elim (Sum.inr (f.classPath, f.fileName, f.fileLine)) Sum.inl :
      Str ⊕ (Option Str × Option Str × Nat)))
    (fun f g => by
      unfold javaDup
      cases f.name <;> cases g.name <;> simp <;> intros <;> simp_all) t u h

/-- C19, compatible mode: the hash is absent exactly if prefix and all contributions are empty. -/
theorem C19_absent (sha1 : Str → Str) (t : Thread) (n : Int) (pre : Option Str) (fl : DupFlags)
    (h : fl.noNormalize = true) : duphash sha1 t n pre fl = .ok none ↔
      fl.koopsCompat = true ∧ pre.getD [] = [] ∧ leading fl n t = [] := by
  rw [C19_plain sha1 t n pre fl h]
  have hne : ∀ s ∈ leading fl n t, s ≠ [] := by
    intro s hs
    have := List.mem_of_mem_take hs
    simpa using (List.mem_filter.1 this).2
  have hf : (leading fl n t).flatten = [] ↔ leading fl n t = [] := by
    constructor
    · intro e
      cases hl : leading fl n t with
      | nil => rfl
      | cons a l => rw [hl] at e hne; simp at e; exact absurd e.1 (hne a (by simp))
    · intro e; rw [e]; rfl
  have hd : fl.koopsCompat = true → (dupText pre fl (leading fl n t) = [] ↔ pre.getD [] = [] ∧ leading fl n t = []) := by
    intro hc; simp [dupText, hc, hf]
  unfold finish
  by_cases hc : fl.koopsCompat = true
  · by_cases h2 : pre.getD [] = [] ∧ leading fl n t = []
    · rw [if_pos ⟨hc, (hd hc).2 h2⟩]; simp [hc, h2]
    · rw [if_neg (fun h => h2 ((hd hc).1 h.2))]
      constructor
      · intro h3; split at h3 <;> cases h3
      · intro h3; exact absurd h3.2 h2
  · rw [if_neg (fun h => hc h.1)]
    constructor
    · intro h3; split at h3 <;> cases h3
    · intro h3; exact absurd h3.1 hc

/-! ### Non-vacuity -/

/-- Three frames, of which the unreliable second one is not counted against the limit. -/
def sampleKoops : Thread := .koops [⟨1, { functionName := some c!"f", reliable := true }⟩,
  ⟨2, { functionName := some c!"g" }⟩, ⟨3, { address := 255, reliable := true }⟩]

example : duphash id sampleKoops 2 none { nohash := true, koopsCompat := true } = .ok (some c!"f\n0xff\n") := by
  decide +kernel
example : duphash id sampleKoops 2 (some c!"p") { nohash := true } = .ok (some c!"pThread\nf\ng\n") := by decide +kernel
example : sampleKoops.WF := by unfold sampleKoops Thread.WF Threads.WF; decide
example : duphash id (.koops []) 0 none { koopsCompat := true } = .ok none := by decide +kernel

end Satyr.Hash
