import Verif.Py.KoopsModel
import Verif.Py.ObjectsProps
import Verif.Text.KoopsSafe
import Verif.Text.KoopsTrace
import Verif.Text.KoopsModules
import Verif.Crash.Lemmas
/-!
# C130: kernel oopses in Python
-/
namespace Satyr.Py.Kerneloops
open Satyr.CStr Satyr.Frames
open Satyr.Py.Base (Exc)
open Satyr.Py.Objects (Stored parseArgs textAt textArg textArg_ok)

/-! ## Specification -/

/-- What the object shows is what the C stack trace has. -/
def Synced (o : Obj) : Prop := o.items = o.trace.frames.map some

/-- The flag with this letter is set by the text: the letter is among the capital letters and blanks after the first `Tainted: `. -/
def TaintedBy (letter : Char) (s : Str) : Prop :=
  ∃ a l b, s = a ++ (c!"Tainted: " ++ (l ++ b)) ∧ (∀ a' b', s = a' ++ (c!"Tainted: " ++ b') → a.length ≤ a'.length) ∧
    (∀ c ∈ l, c = ' ' ∨ 'A' ≤ c ∧ c ≤ 'Z') ∧ letter ∈ l

/-- The keys of the dictionary and the letters they stand for. -/
def letters : List (Str × Char) :=
  [(c!"module_proprietary", 'P'), (c!"forced_module", 'F'), (c!"smp_unsafe", 'S'), (c!"forced_removal", 'R'), (c!"mce", 'M'),
   (c!"page_release", 'B'), (c!"userspace", 'U'), (c!"died_recently", 'D'), (c!"acpi_overridden", 'A'), (c!"warning", 'W'),
   (c!"staging_driver", 'C'), (c!"firmware_workaround", 'I'), (c!"module_out_of_tree", 'O'), (c!"unsigned_module", 'E'),
   (c!"soft_lockup", 'L'), (c!"live_patched", 'K')]

/-- A frame that normalization keeps: it belongs to a module, or its function is not one of the uninteresting ones. -/
def Interesting (f : KoopsFrame) : Prop :=
  f.moduleName ≠ none ∨ ∀ b ∈ Koops.blacklist, f.functionName.map (·.takeWhile (· ≠ '.')) ≠ some b

instance (f : KoopsFrame) : Decidable (Interesting f) := by unfold Interesting; infer_instance

/-- The frame with its function name cut at the first dot. -/
def cut (f : KoopsFrame) : KoopsFrame := { f with functionName := f.functionName.map (·.takeWhile (· ≠ '.')) }

/-! ## The constructor -/

theorem parseTrace_total (s : Str) : ∃ r, Text.Koops.parseTrace s = .ok r := by
  obtain ⟨r, hr, -⟩ := Text.Koops.traceLoop_yields s _ {} s (Nat.lt_succ_self _) (Text.Koops.Rest.refl _) (by intro k hk; cases hk)
  unfold Text.Koops.parseTrace
  rw [hr, Out.bind_ok]
  exact ⟨_, rfl⟩

theorem new_nil : new [] = .ok (.ok (wrap {})) := rfl

theorem new_text {s : Str} (h : '\x00' ∉ s) {t : KoopsTrace} {r : Str} (hp : Text.Koops.parseTrace s = .ok (t, r)) :
    new [.str s] = .ok (.ok (wrap t)) := by
  have e : parseArgs [false] [.str s] = .ok [.text s] := by
    simp only [parseArgs, textArg, if_neg h]
  unfold new
  rw [if_neg (by simp), e]
  change (Text.Koops.parseTrace s >>= fun r => Out.ok (Except.ok (wrap r.1))) = _
  rw [hp, Out.bind_ok]

/-- C130: an object is made from nothing or from a text, whatever the text is; there is no text for which the constructor raises
`ValueError` because of its format. -/
theorem C130_made (args : List Value) : (∃ o, new args = .ok (.ok o)) ↔ args = [] ∨ ∃ s, args = [.str s] ∧ '\x00' ∉ s := by
  constructor
  · rintro ⟨o, h⟩
    match args with
    | [] => exact Or.inl rfl
    | [v] =>
      right
      cases hv : textArg v with
      | error e => simp [new, parseArgs, hv] at h
      | ok s =>
        obtain ⟨rfl, hn⟩ := textArg_ok.1 hv
        exact ⟨s, rfl, hn⟩
    | _ :: _ :: _ => simp [new] at h
  · rintro (rfl | ⟨s, rfl, hn⟩)
    · exact ⟨_, new_nil⟩
    · obtain ⟨⟨t, r⟩, hr⟩ := parseTrace_total s
      exact ⟨_, new_text hn hr⟩

/-! ## The dictionary -/

theorem setItem_new {k : Str} {v : Bool} {d : List (Str × Bool)} (h : k ∉ d.map Prod.fst) : setItem k v d = d ++ [(k, v)] := by
  induction d with
  | nil => rfl
  | cons x d ih =>
    obtain ⟨k', v'⟩ := x
    simp only [List.map_cons, List.mem_cons, not_or] at h
    rw [setItem, if_neg (fun e => h.1 e.symm), ih h.2]
    rfl

theorem fold_setItem (t : Taints) (fs : List Koops.Flag) (d : List (Str × Bool)) (h : (d.map Prod.fst ++ fs.map Koops.Flag.name).Nodup) :
    fs.foldl (fun d f => setItem f.name (f.get t) d) d = d ++ fs.map fun f => (f.name, f.get t) := by
  induction fs generalizing d with
  | nil => simp
  | cons f fs ih =>
    rw [List.foldl_cons, setItem_new, ih]
    · simp
    · simpa using h
    · intro hm
      rw [List.nodup_append] at h
      exact h.2.2 _ hm f.name (by simp) rfl

theorem getTaintFlags_eq (o : Obj) : getTaintFlags o = Koops.flags.map fun f => (f.name, f.get o.trace.taint) := by
  unfold getTaintFlags
  rw [fold_setItem _ _ _ (by simpa using Koops.flags_names)]
  rfl

theorem letters_eq : letters = Koops.flags.map fun f => (f.name, f.letter) := rfl

/-- C130: the dictionary of the taint flags of an oops that was read has the sixteen keys, and each is true if and only if the text
has its letter. -/
theorem C130_taints (s : Str) (o : Obj) (h : new [.str s] = .ok (.ok o)) :
    (getTaintFlags o).map Prod.fst = letters.map Prod.fst ∧ (letters.map Prod.fst).Nodup ∧
      ∀ k c, (k, c) ∈ letters → ((k, true) ∈ getTaintFlags o ↔ TaintedBy c s) := by
  obtain ⟨⟨t, r⟩, hr⟩ := parseTrace_total s
  have hn : '\x00' ∉ s := by
    rcases (C130_made _).1 ⟨o, h⟩ with h | ⟨s', h, hn⟩
    · cases h
    · cases h; exact hn
  rw [new_text hn hr] at h
  cases h
  have ht : t.taint = Koops.parseTaintFlags s {} := by
    obtain ⟨x, hx, -⟩ := Text.Koops.traceLoop_yields s _ {} s (Nat.lt_succ_self _) (Text.Koops.Rest.refl _) (by intro k hk; cases hk)
    unfold Text.Koops.parseTrace at hr
    rw [hx, Out.bind_ok] at hr
    cases hr
    rfl
  rw [getTaintFlags_eq]
  refine ⟨by rw [letters_eq, List.map_map, List.map_map]; rfl, by decide +kernel, ?_⟩
  intro k c hm
  rw [letters_eq] at hm
  obtain ⟨f, hf, he⟩ := List.mem_map.1 hm
  cases he
  rw [show TaintedBy f.letter s ↔ f.get (Koops.parseTaintFlags s {}) = true from (Text.Koops.C57_taint_text s hf).symm]
  rw [show (wrap t).trace.taint = Koops.parseTaintFlags s {} from ht]
  constructor
  · intro hx
    obtain ⟨g, hg, he⟩ := List.mem_map.1 hx
    have hl := Koops.flag_of_name g hg f hf (Prod.mk.inj he).1
    have : g = f := by
      have := List.inj_on_of_nodup_map Koops.flags_letters hg hf hl
      exact this
    rw [← this]
    exact (Prod.mk.inj he).2
  · intro hx
    exact List.mem_map.2 ⟨f, hf, by rw [hx]⟩

/-- C130: an oops of the usual form is shown in Python as it is written: text, modules, frames. -/
theorem C130_read_partial {s : Str} {f : Text.Koops.Found} (h0 : '\x00' ∉ s) (h : Text.Koops.TraceText false false none f s) :
    ∃ o, new [.str s] = .ok (.ok o) ∧ o.trace.rawOops = some s ∧ getModules o = f.modules.getD [] ∧
      o.items = (f.ip.toList ++ f.frames).map some ∧ o.trace.version = none ∧ Synced o :=
  ⟨_, new_text h0 (Text.Koops.C75_read_partial h0 h), rfl, rfl, rfl, rfl, rfl⟩

/-! ## Methods -/

theorem mapM_some {α : Type} (l : List α) : (l.map some).mapM id = some l := by
  induction l with
  | nil => rfl
  | cons a l ih => rw [List.map_cons, List.mapM_cons, ih]; rfl

theorem prepare_frames (o : Obj) (fs : List KoopsFrame) (h : o.items = fs.map some) (hs : fs = [] → o.trace.frames = []) :
    prepare o = some { o.trace with frames := fs } := by
  unfold prepare
  rw [h, mapM_some]
  cases fs with
  | nil =>
    have := hs rfl
    obtain ⟨⟨v, t, m, r, fr, re⟩, i⟩ := o
    dsimp only at this
    subst this
    rfl
  | cons => rfl

theorem normalized_eq (fs : List KoopsFrame) : Generic.normalized Koops.normalizeKoops fs =
    .ok ((fs.filter fun f => decide (Interesting f)).map cut) := by
  unfold Generic.normalized
  rw [Koops.C17_filter _ (Crash.nodes_wf fs), Out.bind_ok]
  congr 1
  have e : ((fun n : Threads.Node KoopsFrame => decide (Koops.Kept n)) ∘ Koops.undotted) = (fun f => decide (Interesting f)) ∘ Threads.Node.val := by
    funext n; rfl
  rw [List.filter_map, e, List.map_map]
  conv_rhs => rw [← Crash.nodes_val fs, List.filter_map, List.map_map]
  rfl

/-- C130: `normalize` removes the frames of uninteresting functions and cuts the names at dots; nothing else changes, and the list in
Python has the remaining frames. This needs a list that is not emptied (see `C130_not_emptied`). -/
theorem C130_normalize_partial (o : Obj) (fs : List KoopsFrame) (h : o.items = fs.map some) (hs : fs = [] → o.trace.frames = []) :
    ∃ q, normalize o = .ok (.ok q) ∧ q.items = ((fs.filter fun f => decide (Interesting f)).map cut).map some ∧
      q.trace = { o.trace with frames := (fs.filter fun f => decide (Interesting f)).map cut } ∧ Synced q := by
  refine ⟨wrap { o.trace with frames := (fs.filter fun f => decide (Interesting f)).map cut }, ?_, rfl, rfl, rfl⟩
  unfold normalize
  rw [prepare_frames o fs h hs]
  dsimp only
  rw [normalized_eq, Out.bind_ok]

theorem cut_cut (f : KoopsFrame) : cut (cut f) = cut f := by
  unfold cut
  cases f.functionName with
  | none => rfl
  | some n => simp [List.takeWhile_takeWhile]

theorem interesting_cut (f : KoopsFrame) : Interesting (cut f) ↔ Interesting f := by
  have : (cut f).functionName.map (·.takeWhile (· ≠ '.')) = f.functionName.map (·.takeWhile (· ≠ '.')) := by
    unfold cut
    cases f.functionName with
    | none => rfl
    | some n => simp [List.takeWhile_takeWhile]
  unfold Interesting
  rw [this]
  rfl

/-- C130: normalizing a second time changes nothing. -/
theorem C130_idempotent (o q : Obj) (h : normalize o = .ok (.ok q)) : normalize q = .ok (.ok q) := by
  unfold normalize at h
  cases hp : prepare o with
  | none => rw [hp] at h; cases h
  | some t =>
    rw [hp] at h
    dsimp only at h
    rw [normalized_eq, Out.bind_ok] at h
    cases h
    obtain ⟨q', h1, h2, h3, h4⟩ := C130_normalize_partial (wrap { t with frames := (t.frames.filter fun f => decide (Interesting f)).map cut })
      ((t.frames.filter fun f => decide (Interesting f)).map cut) rfl (fun e => e)
    rw [h1]
    have e : (((t.frames.filter fun f => decide (Interesting f)).map cut).filter fun f => decide (Interesting f)).map cut =
        (t.frames.filter fun f => decide (Interesting f)).map cut := by
      rw [List.filter_map, List.map_map]
      have e1 : ((fun f => decide (Interesting f)) ∘ cut) = fun f => decide (Interesting f) := by
        funext f; simp [interesting_cut]
      have e2 : cut ∘ cut = cut := by funext f; exact cut_cut f
      rw [e1, e2, List.filter_filter]
      simp
    rw [e] at h2 h3
    obtain ⟨qt, qi⟩ := q'
    dsimp only at h2 h3
    rw [h2, h3]
    rfl

/-- C130: something else than a frame in the list is an error of `dup` and `normalize`. -/
theorem C130_bad_item (o : Obj) (h : none ∈ o.items) : normalize o = .ok (.error .type) ∧ dup o = .error .type := by
  have hp : prepare o = none := by
    have : o.items.mapM id = none := by
      generalize o.items = l at h
      induction l with
      | nil => cases h
      | cons a l ih =>
        cases a with
        | none => rfl
        | some a =>
          rw [List.mapM_cons, ih (by simpa using h)]
          rfl
    unfold prepare
    rw [this]
  unfold normalize dup
  rw [hp]
  exact ⟨rfl, rfl⟩

/-- C130: a copy shows the same. -/
theorem C130_dup_partial (o : Obj) (fs : List KoopsFrame) (h : o.items = fs.map some) (hs : fs = [] → o.trace.frames = []) :
    ∃ q, dup o = .ok q ∧ q.items = o.items ∧ q.trace = { o.trace with frames := fs } ∧ getModules q = getModules o ∧
      getTaintFlags q = getTaintFlags o ∧ str q = str o ∧ Synced q := by
  refine ⟨wrap { o.trace with frames := fs }, ?_, h.symm, rfl, rfl, rfl, ?_, rfl⟩
  · unfold dup
    rw [prepare_frames o fs h hs]
  · unfold str
    rw [h]
    rfl

/-- C130 is false for a list from which all frames were removed: the frames are back after `normalize` and in a copy. -/
theorem C130_not_emptied : ∃ o q r : Obj, o.items = [] ∧ dup o = .ok q ∧ q.items ≠ [] ∧ normalize o = .ok (.ok r) ∧ r.items ≠ [] :=
  ⟨{ trace := { frames := [{ functionName := some c!"f" }] }, items := [] }, wrap { frames := [{ functionName := some c!"f" }] },
    wrap { frames := [{ functionName := some c!"f" }] }, rfl, rfl, by decide, by decide +kernel, by decide⟩

/-- C130: the text tells the number of frames in the list. -/
theorem C130_text (o q : Obj) : str o = str q ↔ o.items.length = q.items.length := by
  constructor
  · intro h
    unfold str at h
    exact natDec_injective (List.append_cancel_left (List.append_cancel_right h))
  · intro h
    unfold str
    rw [h]

/-! ## Concrete cases -/

def sample : Obj := wrap { version := some c!"3.10", frames := [{ functionName := some c!"dump_stack" }, { functionName := some c!"f.isra.0" }] }

example : normalize sample = .ok (.ok (wrap { version := some c!"3.10", frames := [{ functionName := some c!"f" }] })) := by decide +kernel
example : str sample = c!"Kerneloops with 2 frames" := by decide +kernel
example : ∃ o, new [.str c!"BUG: x Tainted: P W\n"] = .ok (.ok o) ∧ (c!"warning", true) ∈ getTaintFlags o ∧ (c!"mce", false) ∈ getTaintFlags o :=
  ⟨wrap { taint := { moduleProprietary := true, warning := true }, rawOops := some c!"BUG: x Tainted: P W\n", reason := some c!"BUG: x Tainted: P W" },
    by decide +kernel, by decide +kernel, by decide +kernel⟩
example : new [.int 1] = .ok (.error .type) := by decide +kernel
example : none ∈ ({ trace := {}, items := [none] } : Obj).items := by decide

end Satyr.Py.Kerneloops
