import Verif.Py.JavaModel
import Verif.Py.CoreProps
import Verif.Py.ObjectsProps
import Verif.Generic.Props
import Mathlib.Data.List.Forall2
/-!
# C140: Java stack traces in Python
-/
namespace Satyr.Py.Java
open Satyr.CStr Satyr.Frames Satyr.Normalize Satyr.Generic
open Satyr.Py.Base (Exc)
open Satyr.Py.Objects (textArg textArg_ok)
open Satyr.Py.Core (mapM_some)

/-! ## Specification -/

/-- A thread object shows a thread: same name, and the frames of its Python list. (If the list is empty, no frames are left from an
earlier list.) -/
def ShowsThread (w : World) (i : Option ThreadObj) (c : JavaThread) : Prop :=
  ∃ t m, i = some t ∧ w.thread t.ptr = some m ∧ m.name = c.name ∧ t.items = c.frames.map some ∧ (c.frames = [] → m.frames = [])

/-- What an object shows in Python: the threads of the Python list, none of which occurs twice. (If the list is empty, no threads are left
from an earlier list.) -/
structure Shows (w : World) (o : Obj) (t : JavaTrace) : Prop where
  threads : List.Forall₂ (ShowsThread w) o.items t.threads
  distinct : (ptrs o.items).Nodup
  stale : o.items = [] → o.head = []

/-- Addresses from `next` on are free. -/
def Fresh (w : World) : Prop := ∀ p, w.next ≤ p → w.thread p = none

/-! ## The linked list -/

/-- Preparing one thread makes the C thread the one that is shown; other threads stay. -/
theorem prepareThread_eq {w : World} {t : ThreadObj} {c : JavaThread} (h : ShowsThread w (some t) c) :
    ∃ w', prepareThread t w = .ok (some w') ∧ w'.next = w.next ∧ w'.thread t.ptr = some c ∧ ∀ p, p ≠ t.ptr → w'.thread p = w.thread p := by
  obtain ⟨t', m, ht, hm, hid, hi, hs⟩ := h
  cases ht
  obtain ⟨cid, fs⟩ := c
  obtain ⟨mid, ms⟩ := m
  dsimp only at *
  subst hid
  unfold prepareThread
  rw [hm, hi]
  dsimp only
  rw [mapM_some]
  cases fs with
  | nil =>
    cases hs rfl
    exact ⟨w, rfl, rfl, hm, fun _ _ => rfl⟩
  | cons f fs => exact ⟨_, rfl, rfl, by simp [World.set], fun p hp => by simp [World.set, hp]⟩

theorem ptrs_cons (t : ThreadObj) (l : List (Option ThreadObj)) : ptrs (some t :: l) = t.ptr :: ptrs l := rfl

theorem showsThread_congr {w w' : World} {i : Option ThreadObj} {c : JavaThread} (h : ShowsThread w i c)
    (e : ∀ t, i = some t → w'.thread t.ptr = w.thread t.ptr) : ShowsThread w' i c := by
  obtain ⟨t, m, rfl, hm, r⟩ := h
  exact ⟨t, m, rfl, by rw [e t rfl, hm], r⟩

theorem mem_ptrs {t : ThreadObj} {l : List (Option ThreadObj)} (h : some t ∈ l) : t.ptr ∈ ptrs l :=
  List.mem_filterMap.2 ⟨some t, h, rfl⟩

theorem prepareAll_eq {items : List (Option ThreadObj)} {cs : List JavaThread} {w : World} (h : List.Forall₂ (ShowsThread w) items cs)
    (hn : (ptrs items).Nodup) : ∃ w', prepareAll items w = .ok (some w') ∧ w'.next = w.next ∧
      List.Forall₂ (fun p c => w'.thread p = some c) (ptrs items) cs ∧ ∀ p, p ∉ ptrs items → w'.thread p = w.thread p := by
  induction items generalizing cs w with
  | nil =>
    cases h
    exact ⟨w, rfl, rfl, .nil, fun _ _ => rfl⟩
  | cons i items ih =>
    cases h with
    | @cons _ c _ cs h1 h2 =>
      obtain ⟨t, m, rfl, -⟩ := id h1
      rw [ptrs_cons, List.nodup_cons] at hn
      obtain ⟨w1, e1, n1, c1, o1⟩ := prepareThread_eq h1
      have h2' : List.Forall₂ (ShowsThread w1) items cs := by
        have : ∀ {l : List (Option ThreadObj)} {cs : List JavaThread}, t.ptr ∉ ptrs l → List.Forall₂ (ShowsThread w) l cs →
            List.Forall₂ (ShowsThread w1) l cs := by
          intro l cs hp hl
          induction hl with
          | nil => exact .nil
          | @cons i c l cs a b ih =>
            have hi : ∀ u, i = some u → u.ptr ≠ t.ptr := by
              rintro u rfl e
              exact hp (by rw [ptrs_cons, e]; simp)
            refine .cons (showsThread_congr a fun u hu => o1 _ (hi u hu)) (ih fun hm => hp ?_)
            obtain ⟨u, -, rfl, -⟩ := a
            rw [ptrs_cons]
            exact List.mem_cons_of_mem _ hm
        exact this hn.1 h2
      obtain ⟨w2, e2, n2, c2, o2⟩ := ih h2' hn.2
      refine ⟨w2, ?_, by rw [n2, n1], ?_, ?_⟩
      · rw [prepareAll, e1]
        exact e2
      · rw [ptrs_cons]
        exact .cons (by rw [o2 _ hn.1, c1]) c2
      · intro p hp
        rw [ptrs_cons, List.mem_cons, not_or] at hp
        rw [o2 _ hp.2, o1 _ hp.1]

theorem readAll_eq {w : World} {ps : List Nat} {cs : List JavaThread} (h : List.Forall₂ (fun p c => w.thread p = some c) ps cs) :
    w.readAll ps = .ok cs := by
  induction h with
  | nil => rfl
  | cons a _ ih =>
    rw [World.readAll, a]
    dsimp only
    rw [ih, Out.bind_ok]

theorem forall_shows {w : World} {items : List (Option ThreadObj)} {cs : List JavaThread} (h : List.Forall₂ (ShowsThread w) items cs)
    {w' : World} (h' : List.Forall₂ (fun p c => w'.thread p = some c) (ptrs items) cs) : List.Forall₂ (ShowsThread w') items cs := by
  induction h with
  | nil => exact .nil
  | cons a _ ih =>
    obtain ⟨t, m, rfl, hm, hid, hi, hs⟩ := a
    rw [ptrs_cons] at h'
    cases h' with
    | cons b h' => exact .cons ⟨t, _, rfl, b, rfl, hi, fun e => e⟩ (ih h')

theorem ptrs_get {w : World} {items : List (Option ThreadObj)} {cs : List JavaThread} (h : List.Forall₂ (ShowsThread w) items cs) (i : Nat) :
    (ptrs items)[i]? = (items[i]?.bind fun x => x).map ThreadObj.ptr := by
  induction h generalizing i with
  | nil => rfl
  | cons a _ ih =>
    obtain ⟨t, -, rfl, -⟩ := a
    rw [ptrs_cons]
    cases i with
    | zero => rfl
    | succ i => simpa using ih i

/-- What the methods start from. -/
theorem prepare_eq {w : World} {o : Obj} {t : JavaTrace} (h : Shows w o t) : ∃ o' w', prepare o w = .ok (some (o', w')) ∧
    o'.head = ptrs o.items ∧ o'.items = o.items ∧ w'.next = w.next ∧ List.Forall₂ (fun p c => w'.thread p = some c) (ptrs o.items) t.threads ∧
      (∀ p, p ∉ ptrs o.items → w'.thread p = w.thread p) ∧ Shows w' o' t := by
  obtain ⟨w', e, n, c, r⟩ := prepareAll_eq h.threads h.distinct
  have hs := forall_shows h.threads c
  unfold prepare
  rw [e]
  dsimp only
  rw [if_pos h.distinct]
  by_cases hi : o.items = []
  · rw [if_pos hi]
    have hh : o.head = ptrs o.items := by rw [h.stale hi, hi]; rfl
    exact ⟨o, w', rfl, hh, rfl, n, c, r, hs, h.distinct, h.stale⟩
  · rw [if_neg hi]
    exact ⟨_, w', rfl, rfl, rfl, n, c, r, hs, h.distinct, fun e => absurd e hi⟩

/-! ## C140 -/

/-- C140: `to_short_text` gives the text of the stack trace that is shown; an exception if it has no threads. -/
theorem C140_short_text_partial (w : World) (o : Obj) (t : JavaTrace) (h : Shows w o t) (max : Int)
    (hm : -2147483648 ≤ max ∧ max ≤ 2147483647) : toShortText max o w =
      (Generic.toShortText (.java t) max >>= fun s => .ok (match s with | some s => .ok s | none => .error .system)) := by
  rw [C114_short_text (.java t) trivial max]
  change toShortText max o w = (Short.javaText t max >>= _)
  obtain ⟨o', w', e, hh, -, -, hf, -⟩ := prepare_eq h
  unfold toShortText
  rw [show intArg max = some max from if_pos hm]
  dsimp only
  rw [e]
  dsimp only
  unfold findCrash Short.javaText
  rw [hh]
  generalize ptrs o.items = ps at *
  generalize t.threads = ts at *
  cases hf with
  | nil => rfl
  | cons a _ =>
    unfold textOf
    dsimp only [List.head?]
    rw [a]
    rfl

/-- C140: `crash_thread` is the first thread of the list. -/
theorem C140_crash_thread_partial (w : World) (o : Obj) (t : JavaTrace) (h : Shows w o t) :
    getCrash o w = .ok (.ok (o.items.head?.bind fun x => x)) := by
  obtain ⟨o', w', e, hh, hi', -⟩ := prepare_eq h
  unfold getCrash
  rw [e]
  dsimp only
  unfold findCrash
  rw [hh, hi']
  have ht := h.threads
  generalize o.items = l at *
  generalize t.threads = ts at *
  cases ht with
  | nil => rfl
  | cons a _ =>
    obtain ⟨u, -, rfl, -⟩ := a
    rw [ptrs_cons]
    simp [search]

/-- C140: `get_bthash` gives the hash of the stack trace that is shown. -/
theorem C140_bthash_partial (sha1 : Str → Str) (w : World) (o : Obj) (t : JavaTrace) (h : Shows w o t) (nohash : Bool) :
    getBthash sha1 (if nohash then 2 else 0) o w = (Generic.getBthash sha1 (.java t) nohash >>= fun s => .ok (.ok s)) := by
  obtain ⟨o', w', e, hh, -, -, hf, -⟩ := prepare_eq h
  unfold getBthash
  cases nohash with
  | true =>
    rw [show intArg (if true then 2 else 0) = some 2 from rfl]
    dsimp only
    rw [e]
    dsimp only
    rw [hh, readAll_eq hf, Out.bind_ok, show Base.bit 2 1 = true by decide]
  | false =>
    rw [show intArg (if false = true then 2 else 0) = some 0 from rfl]
    dsimp only
    rw [e]
    dsimp only
    rw [hh, readAll_eq hf, Out.bind_ok, show Base.bit 0 1 = false by decide]

/-- C140: something else than a thread in the list, or than a frame in a thread before, is an error. -/
theorem C140_bad_item (w : World) (o : Obj) (t : JavaTrace) (good rest : List (Option ThreadObj)) (bad : Option ThreadObj)
    (h : Shows w { o with items := good } t)
    (hb : bad = none ∨ ∃ u, bad = some u ∧ none ∈ u.items ∧ u.ptr ∉ ptrs good ∧ w.thread u.ptr ≠ none) (max : Int) (sha1 : Str → Str)
    (hm : -2147483648 ≤ max ∧ max ≤ 2147483647) :
    toShortText max { o with items := good ++ bad :: rest } w = .ok (.error .type) ∧
    getBthash sha1 max { o with items := good ++ bad :: rest } w = .ok (.error .type) ∧
    getCrash { o with items := good ++ bad :: rest } w = .ok (.error .type) ∧
    dup { o with items := good ++ bad :: rest } w = .ok (.error .type) := by
  have happ : ∀ (l : List (Option ThreadObj)) {w w' : World}, prepareAll good w = .ok (some w') → prepareAll (good ++ l) w = prepareAll l w' := by
    intro l
    generalize good = g
    induction g with
    | nil => intro w w' e; cases e; rfl
    | cons i g ih =>
      intro w w' e
      cases i with
      | none => cases e
      | some u =>
        rw [prepareAll] at e
        rw [List.cons_append, prepareAll]
        cases hu : prepareThread u w with
        | ok r =>
          cases r with
          | none => rw [hu] at e; cases e
          | some w1 => rw [hu] at e; exact ih e
        | abort => rw [hu] at e; cases e
        | ub => rw [hu] at e; cases e
  obtain ⟨w', e, -, -, r⟩ := prepareAll_eq h.threads h.distinct
  have hp : prepare { o with items := good ++ bad :: rest } w = .ok none := by
    unfold prepare
    dsimp only
    rw [happ _ e]
    rcases hb with rfl | ⟨u, rfl, hn, hu, hl⟩
    · rfl
    · have hmm : u.items.mapM id = none := by
        generalize u.items = l at hn
        induction l with
        | nil => cases hn
        | cons a l ih =>
          cases a with
          | none => rfl
          | some a => rw [List.mapM_cons, ih (by simpa using hn)]; rfl
      have : prepareThread u w' = .ok none := by
        unfold prepareThread
        rw [r _ hu]
        cases hc : w.thread u.ptr with
        | none => exact absurd hc hl
        | some c =>
          dsimp only
          rw [hmm]
      rw [prepareAll, this]
  have hi : intArg max = some max := if_pos hm
  refine ⟨?_, ?_, ?_, ?_⟩
  · unfold toShortText; rw [hi]; dsimp only; rw [hp]
  · unfold getBthash; rw [hi]; dsimp only; rw [hp]
  · unfold getCrash; rw [hp]
  · unfold dup; rw [hp]

/-! ## New objects -/

theorem objects_cons (n : Nat) (c : JavaThread) (ts : List JavaThread) :
    objects n (c :: ts) = some { ptr := n, items := c.frames.map some } :: objects (n + 1) ts := rfl

theorem ptrs_objects (ts : List JavaThread) (n : Nat) : ptrs (objects n ts) = List.range' n ts.length := by
  induction ts generalizing n with
  | nil => rfl
  | cons c ts ih => rw [objects_cons, ptrs_cons, ih]; rfl

theorem objects_shows (ts : List JavaThread) (n : Nat) (w : World) (h : ∀ i c, ts[i]? = some c → w.thread (n + i) = some c) :
    List.Forall₂ (ShowsThread w) (objects n ts) ts := by
  induction ts generalizing n with
  | nil => exact .nil
  | cons c ts ih =>
    rw [objects_cons]
    refine .cons ⟨_, c, rfl, h 0 c rfl, rfl, rfl, fun e => e⟩ (ih (n + 1) fun i d hd => ?_)
    have := h (i + 1) d (by simpa using hd)
    rwa [show n + 1 + i = n + (i + 1) by omega]

theorem add_get (w : World) (ts : List JavaThread) (i : Nat) (c : JavaThread) (h : ts[i]? = some c) : (w.add ts).thread (w.next + i) = some c := by
  have := (List.getElem?_eq_some_iff.1 h).1
  simp only [World.add]
  rw [if_pos (by omega), show w.next + i - w.next = i by omega, h]

theorem add_old (w : World) (ts : List JavaThread) (p : Nat) (h : p < w.next) : (w.add ts).thread p = w.thread p := by
  simp only [World.add]
  rw [if_neg (by omega)]

theorem wrap_shows (t : JavaTrace) (w : World) : Shows (wrap t w).2 (wrap t w).1 t where
  threads := objects_shows _ _ _ (add_get w _)
  distinct := by
    show (ptrs (objects _ _)).Nodup
    rw [ptrs_objects]
    exact List.nodup_range'
  stale e := by
    have : t.threads = [] := by
      cases ht : t.threads with
      | nil => rfl
      | cons c ts => rw [show (wrap t w).1.items = objects w.next t.threads from rfl, ht, objects_cons] at e; cases e
    simp [wrap, this]

theorem wrap_fresh (t : JavaTrace) (w : World) (h : Fresh w) : Fresh (wrap t w).2 := by
  intro p hp
  simp only [wrap, World.add] at hp ⊢
  rw [if_neg (by omega)]
  exact h p (by omega)

/-- A new object: threads that were not used before, and everything else in memory stays. -/
def Made (w : World) (t : JavaTrace) (o : Obj) (w' : World) : Prop :=
  Fresh w' ∧ (∀ p, p < w.next → w'.thread p = w.thread p) ∧ (∀ p ∈ ptrs o.items, w.thread p = none) ∧ Shows w' o t

theorem wrap_made (t : JavaTrace) (w : World) (hf : Fresh w) : Made w t (wrap t w).1 (wrap t w).2 := by
  refine ⟨wrap_fresh t w hf, add_old w t.threads, fun p hp => hf p ?_, wrap_shows t w⟩
  rw [show (wrap t w).1.items = objects w.next t.threads from rfl, ptrs_objects, List.mem_range'_1] at hp
  exact hp.1

/-- C140: `JavaStacktrace()` shows an empty stack trace. -/
theorem C140_empty (w : World) (hf : Fresh w) : ∃ o w', new [] w = .ok (.ok (o, w')) ∧ Made w {} o w' :=
  ⟨_, _, rfl, wrap_made {} w hf⟩

/-- C140: `JavaStacktrace(text)` shows the thread that the library reads from the text, and what the library does not read is a
`ValueError`. -/
theorem C140_parsed (s : Str) (h0 : '\x00' ∉ s) (w : World) (hf : Fresh w) (r : Option (JavaThread × Str)) (hr : Text.Java.parseThread s = .ok r) :
    (r = none → new [.str s] w = .ok (.error .value)) ∧
    ∀ t rest, r = some (t, rest) → ∃ o w', new [.str s] w = .ok (.ok (o, w')) ∧ Made w { threads := [t] } o w' := by
  have hv : textArg (.str s) = .ok s := textArg_ok.2 ⟨rfl, h0⟩
  constructor
  · rintro rfl
    simp only [new, hv, hr, Out.bind_ok]
  · rintro t rest rfl
    exact ⟨_, _, by simp only [new, hv, hr, Out.bind_ok], wrap_made _ w hf⟩

/-- C140: the class methods `from_json` for Java and core stack traces show what the library reads, and what it does not read is a
`ValueError`. -/
theorem C140_from_json (s : Str) (h0 : '\x00' ∉ s) (w : World) (hf : Fresh w) (w2 : Core.World) :
    (∀ t, (Json.parse s).bind Json.Java.fromJson = some t → ∃ o w', fromJson (.str s) w = .ok (.ok (o, w')) ∧ Made w t o w') ∧
    ((Json.parse s).bind Json.Java.fromJson = none → fromJson (.str s) w = .ok (.error .value)) ∧
    (∀ t, (Json.parse s).bind Json.Core.fromJson = some t →
      ∃ o w', coreFromJson (.str s) w2 = .ok (.ok (o, w')) ∧ Core.new [.str s] w2 = .ok (o, w') ∧ Core.Shows w' o t) ∧
    ((Json.parse s).bind Json.Core.fromJson = none → coreFromJson (.str s) w2 = .ok (.error .value)) := by
  have hv : textArg (.str s) = .ok s := textArg_ok.2 ⟨rfl, h0⟩
  have e1 : fromJsonText Report.ReportType.java.code s = .ok (((Json.parse s).bind Json.Java.fromJson).map .java) := by
    unfold fromJsonText
    cases Json.parse s <;> rfl
  have e2 : fromJsonText Report.ReportType.core.code s = .ok (((Json.parse s).bind Json.Core.fromJson).map .core) := by
    unfold fromJsonText
    cases Json.parse s <;> rfl
  refine ⟨fun t h => ⟨_, _, ?_, wrap_made t w hf⟩, fun h => ?_, fun t h => ⟨_, _, ?_, ?_, Core.wrap_shows t w2 ?_⟩, fun h => ?_⟩
  · unfold fromJson fromJsonAs
    rw [hv]
    dsimp only
    rw [e1, h]
    rfl
  · unfold fromJson fromJsonAs
    rw [hv]
    dsimp only
    rw [e1, h]
    rfl
  · unfold coreFromJson fromJsonAs
    rw [hv]
    dsimp only
    rw [e2, h]
    rfl
  · simp [Core.new, Objects.parseArgs, hv, Objects.textAt, h]
  · obtain ⟨j, -, hj⟩ := Option.bind_eq_some_iff.1 h
    exact Core.fromJson_crash hj
  · unfold coreFromJson fromJsonAs
    rw [hv]
    dsimp only
    rw [e2, h]
    rfl

/-- C140: an object made from what the library wrote shows the stack trace (without what is not written, see C45). -/
theorem C140_read_back (t : JavaTrace) (w : World) (hf : Fresh w) (h0 : '\x00' ∉ Json.Java.toJson t) :
    ∃ o w', fromJson (.str (Json.Java.toJson t)) w = .ok (.ok (o, w')) ∧ Made w (Json.Java.keep t) o w' :=
  (C140_from_json _ h0 w hf {}).1 _ (Json.Java.C45_read_back t)

/-- C140: no text is read by `GdbStacktrace.from_json`; it is always a `ValueError`. -/
theorem C140_gdb_from_json (s : Str) (h0 : '\x00' ∉ s) : gdbFromJson (.str s) = .ok (.error .value) := by
  unfold gdbFromJson fromJsonAs
  rw [textArg_ok.2 ⟨rfl, h0⟩]
  dsimp only
  unfold fromJsonText
  cases Json.parse s <;> rfl

/-! ## Copies -/

/-- C140: a copy shows the same, as does the original; nothing that is done to the threads of the original, not even their destruction,
changes what the copy shows, and the other way round. -/
theorem C140_dup_partial (w : World) (o : Obj) (t : JavaTrace) (h : Shows w o t) (hf : Fresh w) :
    ∃ c o' w', dup o w = .ok (.ok (c, o', w')) ∧ Shows w' c t ∧ Shows w' o' t ∧ o'.items = o.items ∧ (∀ p ∈ ptrs c.items, p ∉ ptrs o.items) ∧
      (∀ w'' : World, (∀ p, p ∉ ptrs o.items → w''.thread p = w'.thread p) → Shows w'' c t) ∧
      (∀ w'' : World, (∀ p, p ∉ ptrs c.items → w''.thread p = w'.thread p) → Shows w'' o' t) := by
  obtain ⟨o1, w1, e, hh, hi, hn, hm, ho, hs1⟩ := prepare_eq h
  have hd : dup o w = .ok (.ok ((wrap t w1).1, o1, (wrap t w1).2)) := by
    unfold dup
    rw [e]
    dsimp only
    rw [hh, readAll_eq hm, Out.bind_ok]
  have hlow : ∀ p ∈ ptrs o.items, p < w.next := by
    intro p hp
    by_contra hge
    have hz := hf p (by omega)
    have : ∀ {l : List (Option ThreadObj)} {cs : List JavaThread}, List.Forall₂ (ShowsThread w) l cs → p ∈ ptrs l → w.thread p ≠ none := by
      intro l cs hl
      induction hl with
      | nil => intro hp; cases hp
      | cons a _ ih =>
        obtain ⟨u, m, rfl, hu, -⟩ := a
        intro hp
        rw [ptrs_cons, List.mem_cons] at hp
        rcases hp with rfl | hp
        · rw [hu]; simp
        · exact ih hp
    exact this h.threads hp hz
  have hs := wrap_shows t w1
  have hdis : ∀ p ∈ ptrs (wrap t w1).1.items, p ∉ ptrs o.items := by
    intro p hp hp'
    rw [show (wrap t w1).1.items = objects w1.next t.threads from rfl, ptrs_objects, List.mem_range'_1] at hp
    have := hlow p hp'
    omega
  have congr : ∀ {l : List (Option ThreadObj)} {cs : List JavaThread} {v v' : World}, (∀ p ∈ ptrs l, v'.thread p = v.thread p) →
      List.Forall₂ (ShowsThread v) l cs → List.Forall₂ (ShowsThread v') l cs := by
    intro l cs v v' hv hl
    induction hl with
    | nil => exact .nil
    | cons a _ ih =>
      refine .cons (showsThread_congr a ?_) (ih fun p hp => hv p ?_)
      · rintro u rfl
        exact hv _ (by rw [ptrs_cons]; simp)
      · obtain ⟨u, -, rfl, -⟩ := a
        rw [ptrs_cons]
        exact List.mem_cons_of_mem _ hp
  have h1 : List.Forall₂ (ShowsThread (wrap t w1).2) o1.items t.threads := by
    rw [hi]
    exact congr (fun p hp => add_old w1 t.threads p (by rw [hn]; exact hlow p hp)) (forall_shows h.threads hm)
  refine ⟨_, _, _, hd, hs, ⟨h1, hs1.distinct, hs1.stale⟩, hi, hdis, fun w'' hw => ?_, fun w'' hw => ?_⟩
  · exact ⟨congr (fun p hp => hw p (hdis p hp)) hs.threads, hs.distinct, hs.stale⟩
  · exact ⟨congr (fun p hp => hw p fun hc => hdis p hc (hi ▸ hp)) h1, hs1.distinct, hs1.stale⟩

/-- C140: other objects with other threads show the same after an object has been destroyed. -/
theorem C140_free (w : World) (o o' : Obj) (t : JavaTrace) (h : Shows w o' t) (hd : ∀ p ∈ ptrs o.items, p ∉ ptrs o'.items) :
    Shows (free o w) o' t ∧ ∀ p ∈ ptrs o.items, (free o w).thread p = none := by
  refine ⟨⟨?_, h.distinct, h.stale⟩, fun p hp => by simp [free, World.free, hp]⟩
  have : ∀ {l : List (Option ThreadObj)} {cs : List JavaThread}, (∀ p ∈ ptrs l, p ∉ ptrs o.items) → List.Forall₂ (ShowsThread w) l cs →
      List.Forall₂ (ShowsThread (free o w)) l cs := by
    intro l cs hv hl
    induction hl with
    | nil => exact .nil
    | cons a _ ih =>
      obtain ⟨u, m, rfl, hu, r⟩ := a
      refine .cons ⟨u, m, rfl, ?_, r⟩ (ih fun p hp => hv p (by rw [ptrs_cons]; exact List.mem_cons_of_mem _ hp))
      have := hv u.ptr (by rw [ptrs_cons]; simp)
      simp [free, World.free, this, hu]
  exact this (fun p hp hq => hd p hq hp) h.threads

/-- C140: what the methods show follows the Python list: threads may be left out and put in another order. -/
theorem C140_list (w : World) (o : Obj) (t : JavaTrace) (h : Shows w o t) (l : List Nat) (hl : l.Nodup) (hb : ∀ i ∈ l, i < o.items.length) (hne : l ≠ []) :
    Shows w { o with items := l.map fun i => o.items.getD i none } { threads := l.map fun i => t.threads.getD i {} } := by
  have hlen := h.threads.length_eq
  refine ⟨?_, ?_, fun e => absurd (by simpa using e) hne⟩
  · show List.Forall₂ _ (l.map _) (l.map _)
    rw [List.forall₂_map_left_iff, List.forall₂_map_right_iff, List.forall₂_same]
    intro i hi
    have h1 := hb i hi
    have := h.threads.get h1 (by omega)
    simpa [List.getD, List.getElem?_eq_getElem h1, List.getElem?_eq_getElem (hlen ▸ h1)] using this
  · have hp : ptrs (l.map fun i => o.items.getD i none) = l.map fun i => (ptrs o.items).getD i 0 := by
      clear hl hne
      induction l with
      | nil => rfl
      | cons i l ih =>
        have h1 := hb i (by simp)
        obtain ⟨u, m, hu, -⟩ := h.threads.get h1 (by omega)
        have hu' : o.items[i]? = some (some u) := by
          rw [List.getElem?_eq_getElem h1]
          simpa using hu
        have hg := ptrs_get h.threads i
        rw [hu'] at hg
        rw [List.map_cons, List.map_cons, show o.items.getD i none = some u by simp [List.getD, hu'], ptrs_cons, ih fun j hj => hb j (by simp [hj])]
        simp only [List.getD, hg]
        rfl
    show (ptrs (l.map _)).Nodup
    rw [hp]
    have hpl : (ptrs o.items).length = o.items.length := by
      have : ∀ {a : List (Option ThreadObj)} {cs : List JavaThread}, List.Forall₂ (ShowsThread w) a cs → (ptrs a).length = a.length := by
        intro a cs ha
        induction ha with
        | nil => rfl
        | cons x _ ih => obtain ⟨u, -, rfl, -⟩ := x; rw [ptrs_cons, List.length_cons, List.length_cons, ih]
      exact this h.threads
    refine hl.map_on ?_
    intro i hi j hj e
    have hi' := hb i hi
    have hj' := hb j hj
    rw [← hpl] at hi' hj'
    simp only [List.getD, List.getElem?_eq_getElem hi', List.getElem?_eq_getElem hj', Option.getD_some] at e
    exact (h.distinct.getElem_inj_iff).1 e

/-- C140: the text of an object tells how many threads it shows. -/
theorem C140_text (w : World) (o : Obj) (t : JavaTrace) (h : Shows w o t) :
    str o = c!"Java stacktrace with " ++ natDec t.threads.length ++ c!" threads" := by
  unfold str
  rw [h.threads.length_eq]

/-! ## Non-vacuity, and what does not hold -/

/-- Two threads. -/
def sample : JavaTrace :=
  { threads := [{ name := some c!"main", frames := [{ name := some c!"a.B.c" }, { name := some c!"a.B.main" }] },
      { name := some c!"gc", frames := [{ name := some c!"a.G.run" }] }] }

/-- The object for the sample. -/
def sampleObj : Obj := (wrap sample {}).1
def sampleWorld : World := (wrap sample {}).2

theorem sample_shows : Shows sampleWorld sampleObj sample := wrap_shows _ _

example : Fresh {} := fun _ _ => rfl
example : toShortText 1 sampleObj sampleWorld
    = .ok (.ok c!"#1 \tat a.B.c(Unknown Source) [unknown]\n") := by
  decide +kernel

example : getCrash sampleObj sampleWorld = .ok (.ok (some { ptr := 1, items := [some { name := some c!"a.B.c" }, some { name := some c!"a.B.main" }] })) := by
  decide +kernel
example : '\x00' ∉ Json.Java.toJson sample := by decide +kernel
example : ∃ r, Text.Java.parseThread c!"Exception in thread \"main\" java.lang.E: x\n\tat a.B.c(B.java:3)\n" = .ok (some r) := ⟨_, by with_unfolding_all rfl⟩

/-- C140, not: when all threads are removed, the methods read the threads that were there. -/
theorem C140_not_emptied : ∃ w o t, Shows w o t ∧ getBthash id 0 { o with items := [] } (w.free (ptrs o.items)) = .ub ∧
    toShortText 0 { o with items := [] } (w.free (ptrs o.items)) = .ub ∧ getCrash { o with items := [] } (w.free (ptrs o.items)) = .ok (.ok none) :=
  ⟨sampleWorld, sampleObj, sample, sample_shows, rfl, rfl, rfl⟩

end Satyr.Py.Java
