import Verif.Py.CoreModel
import Verif.Py.ObjectsProps
import Verif.Generic.Props
import Mathlib.Data.List.Forall2
/-!
# C131: core stack traces in Python
-/
namespace Satyr.Py.Core
open Satyr.CStr Satyr.Frames Satyr.Normalize Satyr.Generic
open Satyr.Py.Base (Exc)
open Satyr.Py.Objects (Stored parseArgs textAt textArg textArg_ok)

/-! ## Specification -/

/-- A thread object shows a thread: same number, and the frames of its Python list. (If the list is empty, no frames are left from an
earlier list.) -/
def ShowsThread (w : World) (i : Option ThreadObj) (c : CoreThread) : Prop :=
  ∃ t m, i = some t ∧ w.thread t.ptr = some m ∧ m.id = c.id ∧ t.items = c.frames.map some ∧ (c.frames = [] → m.frames = [])

/-- What an object shows in Python: the attributes, the threads of the Python list, and which of them is marked as the crash thread. -/
structure Shows (w : World) (o : Obj) (t : CoreTrace) : Prop where
  signal : o.signal = t.signal
  executable : o.executable = t.executable
  only : o.onlyCrashThread = t.onlyCrashThread
  threads : List.Forall₂ (ShowsThread w) o.items t.threads
  distinct : (ptrs o.items).Nodup
  unmarked : t.crashThread = none → o.crash = none
  marked : ∀ i, t.crashThread = some i → ∃ c, o.items[i]? = some (some c) ∧ o.crash = some c.ptr
  stale : o.items = [] → o.head = []

/-- Addresses from `next` on are free. -/
def Fresh (w : World) : Prop := ∀ p, w.next ≤ p → w.thread p = none

/-! ## The linked list -/

theorem mapM_some {α : Type} (l : List α) : (l.map some).mapM id = some l := by
  induction l with
  | nil => rfl
  | cons a l ih => rw [List.map_cons, List.mapM_cons, ih]; rfl

/-- Preparing one thread makes the C thread the one that is shown; other threads stay. -/
theorem prepareThread_eq {w : World} {t : ThreadObj} {c : CoreThread} (h : ShowsThread w (some t) c) :
    ∃ w', prepareThread t w = .ok (some w') ∧ w'.next = w.next ∧ w'.thread t.ptr = some c ∧ ∀ p, p ≠ t.ptr → w'.thread p = w.thread p := by
  obtain ⟨t', m, ht, hm, hid, hi, hs⟩ := h
  cases ht
  obtain ⟨cid, fs⟩ := c
  obtain ⟨mid, ms⟩ := m
  dsimp only at *
  subst hid
  unfold prepareThread
  rw [hm, hi]
  dsimp only
  rw [mapM_some]
  cases fs with
  | nil =>
    cases hs rfl
    exact ⟨w, rfl, rfl, hm, fun _ _ => rfl⟩
  | cons f fs => exact ⟨_, rfl, rfl, by simp [World.set], fun p hp => by simp [World.set, hp]⟩

theorem ptrs_cons (t : ThreadObj) (l : List (Option ThreadObj)) : ptrs (some t :: l) = t.ptr :: ptrs l := rfl

theorem showsThread_congr {w w' : World} {i : Option ThreadObj} {c : CoreThread} (h : ShowsThread w i c)
    (e : ∀ t, i = some t → w'.thread t.ptr = w.thread t.ptr) : ShowsThread w' i c := by
  obtain ⟨t, m, rfl, hm, r⟩ := h
  exact ⟨t, m, rfl, by rw [e t rfl, hm], r⟩

theorem mem_ptrs {t : ThreadObj} {l : List (Option ThreadObj)} (h : some t ∈ l) : t.ptr ∈ ptrs l :=
  List.mem_filterMap.2 ⟨some t, h, rfl⟩

theorem prepareAll_eq {items : List (Option ThreadObj)} {cs : List CoreThread} {w : World} (h : List.Forall₂ (ShowsThread w) items cs)
    (hn : (ptrs items).Nodup) : ∃ w', prepareAll items w = .ok (some w') ∧ w'.next = w.next ∧
      List.Forall₂ (fun p c => w'.thread p = some c) (ptrs items) cs ∧ ∀ p, p ∉ ptrs items → w'.thread p = w.thread p := by
  induction items generalizing cs w with
  | nil =>
    cases h
    exact ⟨w, rfl, rfl, .nil, fun _ _ => rfl⟩
  | cons i items ih =>
    cases h with
    | @cons _ c _ cs h1 h2 =>
      obtain ⟨t, m, rfl, -⟩ := id h1
      rw [ptrs_cons, List.nodup_cons] at hn
      obtain ⟨w1, e1, n1, c1, o1⟩ := prepareThread_eq h1
      have h2' : List.Forall₂ (ShowsThread w1) items cs := by
        have : ∀ {l : List (Option ThreadObj)} {cs : List CoreThread}, t.ptr ∉ ptrs l → List.Forall₂ (ShowsThread w) l cs →
            List.Forall₂ (ShowsThread w1) l cs := by
          intro l cs hp hl
          induction hl with
          | nil => exact .nil
          | @cons i c l cs a b ih =>
            have hi : ∀ u, i = some u → u.ptr ≠ t.ptr := by
              rintro u rfl e
              exact hp (by rw [ptrs_cons, e]; simp)
            refine .cons (showsThread_congr a fun u hu => o1 _ (hi u hu)) (ih fun hm => hp ?_)
            obtain ⟨u, -, rfl, -⟩ := a
            rw [ptrs_cons]
            exact List.mem_cons_of_mem _ hm
        exact this hn.1 h2
      obtain ⟨w2, e2, n2, c2, o2⟩ := ih h2' hn.2
      refine ⟨w2, ?_, by rw [n2, n1], ?_, ?_⟩
      · rw [prepareAll, e1]
        exact e2
      · rw [ptrs_cons]
        exact .cons (by rw [o2 _ hn.1, c1]) c2
      · intro p hp
        rw [ptrs_cons, List.mem_cons, not_or] at hp
        rw [o2 _ hp.2, o1 _ hp.1]

theorem readAll_eq {w : World} {ps : List Nat} {cs : List CoreThread} (h : List.Forall₂ (fun p c => w.thread p = some c) ps cs) :
    w.readAll ps = .ok cs := by
  induction h with
  | nil => rfl
  | cons a _ ih =>
    rw [World.readAll, a]
    dsimp only
    rw [ih, Out.bind_ok]

theorem forall_shows {w : World} {items : List (Option ThreadObj)} {cs : List CoreThread} (h : List.Forall₂ (ShowsThread w) items cs)
    {w' : World} (h' : List.Forall₂ (fun p c => w'.thread p = some c) (ptrs items) cs) : List.Forall₂ (ShowsThread w') items cs := by
  induction h with
  | nil => exact .nil
  | cons a _ ih =>
    obtain ⟨t, m, rfl, hm, hid, hi, hs⟩ := a
    rw [ptrs_cons] at h'
    cases h' with
    | cons b h' => exact .cons ⟨t, _, rfl, b, rfl, hi, fun e => e⟩ (ih h')

/-- What the methods start from. -/
theorem prepare_eq {w : World} {o : Obj} {t : CoreTrace} (h : Shows w o t) : ∃ o' w', prepare o w = .ok (some (o', w')) ∧
    o'.head = ptrs o.items ∧ o'.items = o.items ∧ o'.crash = o.crash ∧ o'.signal = o.signal ∧ o'.executable = o.executable ∧
      o'.onlyCrashThread = o.onlyCrashThread ∧ w'.next = w.next ∧ List.Forall₂ (fun p c => w'.thread p = some c) (ptrs o.items) t.threads ∧
      (∀ p, p ∉ ptrs o.items → w'.thread p = w.thread p) ∧ Shows w' o' t := by
  obtain ⟨w', e, n, c, r⟩ := prepareAll_eq h.threads h.distinct
  have hs := forall_shows h.threads c
  unfold prepare
  rw [e]
  dsimp only
  rw [if_pos h.distinct]
  by_cases hi : o.items = []
  · rw [if_pos hi]
    have hh : o.head = ptrs o.items := by rw [h.stale hi, hi]; rfl
    exact ⟨o, w', rfl, hh, rfl, rfl, rfl, rfl, rfl, n, c, r, h.signal, h.executable, h.only, hs, h.distinct, h.unmarked, h.marked, h.stale⟩
  · rw [if_neg hi]
    exact ⟨_, w', rfl, rfl, rfl, rfl, rfl, rfl, rfl, n, c, r, h.signal, h.executable, h.only, hs, h.distinct, h.unmarked, h.marked,
      fun e => absurd e hi⟩

theorem ptrs_get {w : World} {items : List (Option ThreadObj)} {cs : List CoreThread} (h : List.Forall₂ (ShowsThread w) items cs) (i : Nat) :
    (ptrs items)[i]? = (items[i]?.bind fun x => x).map ThreadObj.ptr := by
  induction h generalizing i with
  | nil => rfl
  | cons a _ ih =>
    obtain ⟨t, -, rfl, -⟩ := a
    rw [ptrs_cons]
    cases i with
    | zero => rfl
    | succ i => simpa using ih i

/-- The crash thread is found by its position in the list. -/
theorem findCrash_eq {w w' : World} {o o' : Obj} {t : CoreTrace} (h : Shows w o t) (hh : o'.head = ptrs o.items) (hc : o'.crash = o.crash)
    (hm : List.Forall₂ (fun p c => w'.thread p = some c) (ptrs o.items) t.threads) :
    findCrash o' w' = .ok ((Short.coreCrashThread t).bind fun i => (ptrs o.items)[i]?) := by
  unfold findCrash
  rw [hc, hh]
  cases hk : t.crashThread with
  | none =>
    rw [h.unmarked hk]
    dsimp only
    rw [readAll_eq hm, Out.bind_ok]
    have : Short.coreCrashThread { threads := t.threads } = Short.coreCrashThread t := by
      unfold Short.coreCrashThread
      rw [hk]
    rw [this]
  | some i =>
    obtain ⟨c, hi, hp⟩ := h.marked i hk
    have e : Short.coreCrashThread t = some i := by
      unfold Short.coreCrashThread
      rw [hk]
    rw [hp, e, Option.bind_some, ptrs_get h.threads, hi]
    rfl

/-! ## C131 -/

/-- C131: `to_short_text` gives the text of the stack trace that is shown; an exception if it has no crash thread. -/
theorem C131_short_text_partial (w : World) (o : Obj) (t : CoreTrace) (h : Shows w o t) (max : Int)
    (hm : -2147483648 ≤ max ∧ max ≤ 2147483647) : toShortText max o w =
      (Generic.toShortText (.core t) max >>= fun s => .ok (match s with | some s => .ok s | none => .error .system)) := by
  have hlen : ∀ i, t.crashThread = some i → i < t.threads.length := by
    intro i hi
    obtain ⟨c, hc, -⟩ := h.marked i hi
    rw [← h.threads.length_eq]
    exact (List.getElem?_eq_some_iff.1 hc).1
  rw [C114_short_text (.core t) hlen max]
  change toShortText max o w = (Short.coreText t max >>= _)
  obtain ⟨o', w', e, hh, -, hc, -, -, -, -, hf, -⟩ := prepare_eq h
  unfold toShortText
  rw [show intArg max = some max from if_pos hm]
  dsimp only
  rw [e]
  dsimp only
  rw [findCrash_eq h hh hc hf, Out.bind_ok]
  unfold Short.coreText Short.coreFrames
  cases hk : Short.coreCrashThread t with
  | none => rfl
  | some i =>
    have hi := coreCrashThread_lt (t := t) hlen hk
    rw [Option.bind_some, Option.map_some]
    have hl : i < (ptrs o.items).length := by rw [hf.length_eq]; exact hi
    have hg := hf.get hl hi
    simp only [List.get_eq_getElem] at hg
    rw [List.getElem?_eq_getElem hl]
    unfold textOf
    dsimp only
    rw [hg]
    dsimp only
    have : t.threads.getD i {} = t.threads[i] := by simp [List.getD, List.getElem?_eq_getElem hi]
    rw [this]
    congr 1

/-- C131: `crash_thread` is the thread of the Python list that the library finds in the stack trace that is shown. -/
theorem C131_crash_thread_partial (w : World) (o : Obj) (t : CoreTrace) (h : Shows w o t) :
    getCrash o w = .ok (.ok ((Short.coreCrashThread t).bind fun i => o.items[i]?.bind fun x => x)) := by
  have hlen : ∀ i, t.crashThread = some i → i < t.threads.length := by
    intro i hi
    obtain ⟨c, hc, -⟩ := h.marked i hi
    rw [← h.threads.length_eq]
    exact (List.getElem?_eq_some_iff.1 hc).1
  obtain ⟨o', w', e, hh, hi', hc, -, -, -, -, hf, -⟩ := prepare_eq h
  unfold getCrash
  rw [e]
  dsimp only
  rw [findCrash_eq h hh hc hf, Out.bind_ok]
  cases hk : Short.coreCrashThread t with
  | none => rfl
  | some i =>
    have hi := coreCrashThread_lt (t := t) hlen hk
    have hl : i < (ptrs o.items).length := by rw [hf.length_eq]; exact hi
    rw [Option.bind_some, List.getElem?_eq_getElem hl, Option.bind_some, hi']
    dsimp only
    have key : ∀ {items : List (Option ThreadObj)} {cs : List CoreThread} (_ : List.Forall₂ (ShowsThread w) items cs)
        (_ : (ptrs items).Nodup) (i : Nat) (hl : i < (ptrs items).length),
        search (ptrs items)[i] items = .ok (items[i]?.bind fun x => x) := by
      intro items cs hs
      induction hs with
      | nil => intro _ i hl; exact absurd hl (by simp [ptrs])
      | @cons x c l cs a b ih =>
        obtain ⟨u, -, rfl, -⟩ := a
        intro hn i hl
        cases i with
        | zero => simp [ptrs_cons, search]
        | succ i =>
          rw [ptrs_cons, List.nodup_cons] at hn
          have hl' : i < (ptrs l).length := by simpa [ptrs_cons] using hl
          have hne : u.ptr ≠ (ptrs l)[i] := fun e => hn.1 (e ▸ List.getElem_mem hl')
          have := ih hn.2 i hl'
          simp only [ptrs_cons, List.getElem_cons_succ, List.getElem?_cons_succ]
          rw [search, if_neg hne]
          exact this
    rw [key h.threads h.distinct i hl]

/-- C131: `get_bthash` gives the hash of the stack trace that is shown. -/
theorem C131_bthash_partial (sha1 : Str → Str) (w : World) (o : Obj) (t : CoreTrace) (h : Shows w o t) (nohash : Bool) :
    getBthash sha1 (if nohash then 2 else 0) o w = (Generic.getBthash sha1 (.core t) nohash >>= fun s => .ok (.ok s)) := by
  obtain ⟨o', w', e, hh, -, -, hsg, hex, -, -, hf, -⟩ := prepare_eq h
  have hb := C114_bthash sha1 (.core t)
  have hb' := C114_bthash sha1 (.core { signal := t.signal, executable := t.executable, threads := t.threads })
  have e1 : bthashText (.core { signal := t.signal, executable := t.executable, threads := t.threads }) = bthashText (.core t) := rfl
  rw [e1] at hb'
  unfold getBthash
  cases nohash with
  | true =>
    rw [show intArg (if true then 2 else 0) = some 2 from rfl]
    dsimp only
    rw [e]
    dsimp only
    rw [hh, readAll_eq hf, Out.bind_ok, hsg, hex, h.signal, h.executable, show Base.bit 2 1 = true by decide, hb'.1, hb.1]
  | false =>
    rw [show intArg (if false then 2 else 0) = some 0 from rfl]
    dsimp only
    rw [e]
    dsimp only
    rw [hh, readAll_eq hf, Out.bind_ok, hsg, hex, h.signal, h.executable, show Base.bit 0 1 = false by decide, hb'.2, hb.2]

/-- C131: something else than a thread in the list, or than a frame in a thread before, is an error. -/
theorem C131_bad_item (w : World) (o : Obj) (t : CoreTrace) (good rest : List (Option ThreadObj)) (bad : Option ThreadObj)
    (h : Shows w { o with items := good } t)
    (hb : bad = none ∨ ∃ u, bad = some u ∧ none ∈ u.items ∧ u.ptr ∉ ptrs good ∧ w.thread u.ptr ≠ none) (max : Int) (sha1 : Str → Str)
    (hm : -2147483648 ≤ max ∧ max ≤ 2147483647) :
    toShortText max { o with items := good ++ bad :: rest } w = .ok (.error .type) ∧
    getBthash sha1 max { o with items := good ++ bad :: rest } w = .ok (.error .type) ∧
    getCrash { o with items := good ++ bad :: rest } w = .ok (.error .type) ∧
    dup { o with items := good ++ bad :: rest } w = .ok (.error .type) := by
  have happ : ∀ (l : List (Option ThreadObj)) {w w' : World}, prepareAll good w = .ok (some w') → prepareAll (good ++ l) w = prepareAll l w' := by
    intro l
    generalize good = g
    induction g with
    | nil => intro w w' e; cases e; rfl
    | cons i g ih =>
      intro w w' e
      cases i with
      | none => cases e
      | some u =>
        rw [prepareAll] at e
        rw [List.cons_append, prepareAll]
        cases hu : prepareThread u w with
        | ok r =>
          cases r with
          | none => rw [hu] at e; cases e
          | some w1 => rw [hu] at e; exact ih e
        | abort => rw [hu] at e; cases e
        | ub => rw [hu] at e; cases e
  obtain ⟨w', e, -, -, r⟩ := prepareAll_eq h.threads h.distinct
  have hp : prepare { o with items := good ++ bad :: rest } w = .ok none := by
    unfold prepare
    dsimp only
    rw [happ _ e]
    rcases hb with rfl | ⟨u, rfl, hn, hu, hl⟩
    · rfl
    · have hmm : u.items.mapM id = none := by
        generalize u.items = l at hn
        induction l with
        | nil => cases hn
        | cons a l ih =>
          cases a with
          | none => rfl
          | some a => rw [List.mapM_cons, ih (by simpa using hn)]; rfl
      have : prepareThread u w' = .ok none := by
        unfold prepareThread
        rw [r _ hu]
        cases hc : w.thread u.ptr with
        | none => exact absurd hc hl
        | some c =>
          dsimp only
          rw [hmm]
      rw [prepareAll, this]
  have hi : intArg max = some max := if_pos hm
  refine ⟨?_, ?_, ?_, ?_⟩
  · unfold toShortText; rw [hi]; dsimp only; rw [hp]
  · unfold getBthash; rw [hi]; dsimp only; rw [hp]
  · unfold getCrash; rw [hp]
  · unfold dup; rw [hp]

/-! ## New objects -/

theorem objects_cons (n : Nat) (c : CoreThread) (ts : List CoreThread) :
    objects n (c :: ts) = some { ptr := n, items := c.frames.map some } :: objects (n + 1) ts := rfl

theorem ptrs_objects (ts : List CoreThread) (n : Nat) : ptrs (objects n ts) = List.range' n ts.length := by
  induction ts generalizing n with
  | nil => rfl
  | cons c ts ih => rw [objects_cons, ptrs_cons, ih]; rfl

theorem objects_get (ts : List CoreThread) (n i : Nat) (h : i < ts.length) : ∃ l, (objects n ts)[i]? = some (some { ptr := n + i, items := l }) := by
  induction ts generalizing n i with
  | nil => simp at h
  | cons c ts ih =>
    rw [objects_cons]
    cases i with
    | zero => exact ⟨_, rfl⟩
    | succ i =>
      obtain ⟨l, e⟩ := ih (n + 1) i (by simpa using h)
      exact ⟨l, by rw [List.getElem?_cons_succ, e]; congr 3; omega⟩

theorem objects_shows (ts : List CoreThread) (n : Nat) (w : World) (h : ∀ i c, ts[i]? = some c → w.thread (n + i) = some c) :
    List.Forall₂ (ShowsThread w) (objects n ts) ts := by
  induction ts generalizing n with
  | nil => exact .nil
  | cons c ts ih =>
    rw [objects_cons]
    refine .cons ⟨_, c, rfl, h 0 c rfl, rfl, rfl, fun e => e⟩ (ih (n + 1) fun i d hd => ?_)
    have := h (i + 1) d (by simpa using hd)
    rwa [show n + 1 + i = n + (i + 1) by omega]

theorem add_get (w : World) (ts : List CoreThread) (i : Nat) (c : CoreThread) (h : ts[i]? = some c) : (w.add ts).thread (w.next + i) = some c := by
  have := (List.getElem?_eq_some_iff.1 h).1
  simp only [World.add]
  rw [if_pos (by omega), show w.next + i - w.next = i by omega, h]

theorem add_old (w : World) (ts : List CoreThread) (p : Nat) (h : p < w.next) : (w.add ts).thread p = w.thread p := by
  simp only [World.add]
  rw [if_neg (by omega)]

theorem wrap_shows (t : CoreTrace) (w : World) (h : ∀ i, t.crashThread = some i → i < t.threads.length) : Shows (wrap t w).2 (wrap t w).1 t where
  signal := rfl
  executable := rfl
  only := rfl
  threads := objects_shows _ _ _ (add_get w _)
  distinct := by
    show (ptrs (objects _ _)).Nodup
    rw [ptrs_objects]
    exact List.nodup_range'
  unmarked e := by simp [wrap, e]
  marked i e := by
    obtain ⟨l, hl⟩ := objects_get t.threads w.next i (h i e)
    exact ⟨_, hl, by simp [wrap, e]⟩
  stale e := by
    have : t.threads = [] := by
      cases ht : t.threads with
      | nil => rfl
      | cons c ts => rw [show (wrap t w).1.items = objects w.next t.threads from rfl, ht, objects_cons] at e; cases e
    simp [wrap, this]

theorem wrap_fresh (t : CoreTrace) (w : World) (h : Fresh w) : Fresh (wrap t w).2 := by
  intro p hp
  simp only [wrap, World.add] at hp ⊢
  rw [if_neg (by omega)]
  exact h p (by omega)

theorem lastMarked_lt {l : List Bool} {i : Nat} (h : Json.Core.lastMarked l = some i) : i < l.length := by
  induction l generalizing i with
  | nil => cases h
  | cons b l ih =>
    rw [Json.Core.lastMarked] at h
    cases hk : Json.Core.lastMarked l with
    | some k =>
      rw [hk] at h
      cases h
      simpa using ih hk
    | none =>
      rw [hk] at h
      cases b <;> simp at h
      simp [← h]

/-- A stack trace that was read marks one of its threads, if any. -/
theorem fromJson_crash {j : Json.Value} {t : CoreTrace} (h : Json.Core.fromJson j = some t) : ∀ i, t.crashThread = some i → i < t.threads.length := by
  unfold Json.Core.fromJson at h
  split at h
  · cases h
  · simp only [Option.bind_eq_some_iff] at h
    obtain ⟨_, -, _, -, _, -, l, -, h⟩ := h
    cases h
    intro i hi
    simpa using lastMarked_lt hi

/-- C131: `CoreStacktrace()` shows an empty stack trace; `CoreStacktrace(text)` succeeds if the library reads the text, and shows what
was read in new threads; everything else is refused. Existing threads stay as they are. -/
theorem C131_made (args : List Value) (w : World) (hf : Fresh w) :
    (∀ o w', new args w = .ok (o, w') → Fresh w' ∧ (∀ p, p < w.next → w'.thread p = w.thread p) ∧ (∀ p ∈ ptrs o.items, w.thread p = none) ∧
      ∃ t, (args = [] ∧ t = {} ∨ ∃ s, args = [.str s] ∧ (Json.parse s).bind Json.Core.fromJson = some t) ∧ Shows w' o t) ∧
    ((∃ r, new args w = .ok r) ↔ args = [] ∨ ∃ s, args = [.str s] ∧ '\x00' ∉ s ∧ ((Json.parse s).bind Json.Core.fromJson).isSome) := by
  have hw : ∀ (t : CoreTrace) o w', wrap t w = (o, w') → (∀ i, t.crashThread = some i → i < t.threads.length) →
      Fresh w' ∧ (∀ p, p < w.next → w'.thread p = w.thread p) ∧ (∀ p ∈ ptrs o.items, w.thread p = none) ∧ Shows w' o t := by
    intro t o w' e hc
    have e1 : o = (wrap t w).1 := by rw [e]
    have e2 : w' = (wrap t w).2 := by rw [e]
    subst e1 e2
    refine ⟨wrap_fresh t w hf, add_old w t.threads, fun p hp => hf p ?_, wrap_shows t w hc⟩
    rw [show (wrap t w).1.items = objects w.next t.threads from rfl, ptrs_objects, List.mem_range'_1] at hp
    exact hp.1
  match args with
  | [] =>
    refine ⟨fun o w' e => ?_, fun _ => Or.inl rfl, fun _ => ⟨_, rfl⟩⟩
    have e' : wrap {} w = (o, w') := by
      simpa [new, parseArgs, textAt] using e
    obtain ⟨a, b, c, d⟩ := hw {} o w' e' (by simp)
    exact ⟨a, b, c, {}, Or.inl ⟨rfl, rfl⟩, d⟩
  | [v] =>
    cases hv : textArg v with
    | error e =>
      have hn : new [v] w = .error e := by simp [new, parseArgs, hv]
      refine ⟨fun o w' e => by simp [hn] at e, fun ⟨r, e⟩ => by simp [hn] at e, ?_⟩
      rintro (e | ⟨s, e, h0, -⟩)
      · cases e
      · cases e
        rw [textArg_ok.2 ⟨rfl, h0⟩] at hv
        cases hv
    | ok s =>
      obtain ⟨rfl, h0⟩ := textArg_ok.1 hv
      cases hj : (Json.parse s).bind Json.Core.fromJson with
      | none =>
        have hn : new [.str s] w = .error .value := by simp [new, parseArgs, hv, textAt, hj]
        refine ⟨fun o w' e => by simp [hn] at e, fun ⟨r, e⟩ => by simp [hn] at e, ?_⟩
        rintro (e | ⟨s', e, -, h⟩)
        · cases e
        · cases e
          rw [hj] at h
          cases h
      | some t =>
        have hn : new [.str s] w = .ok (wrap t w) := by simp [new, parseArgs, hv, textAt, hj]
        obtain ⟨j, -, hj'⟩ := Option.bind_eq_some_iff.1 hj
        refine ⟨fun o w' e => ?_, fun _ => Or.inr ⟨s, rfl, h0, by rw [hj]; rfl⟩, fun _ => ⟨_, hn⟩⟩
        rw [hn] at e
        obtain ⟨a, b, c, d⟩ := hw t o w' (by simpa using e) (fromJson_crash hj')
        exact ⟨a, b, c, t, Or.inr ⟨s, rfl, hj⟩, d⟩
  | _ :: _ :: _ =>
    refine ⟨fun o w' e => by simp [new] at e, fun ⟨r, e⟩ => by simp [new] at e, ?_⟩
    rintro (e | ⟨s, e, -⟩) <;> cases e

/-- C131: an object made from what the library wrote shows the stack trace (without the threads' parts that are not written, see C40). -/
theorem C131_read_back (t : CoreTrace) (w : World) (hf : Fresh w) (h : t.threads ≠ []) (hs : t.signal < 2 ^ 16)
    (h0 : '\x00' ∉ Json.Core.toJson t) : ∃ o w', new [.str (Json.Core.toJson t)] w = .ok (o, w') ∧ Shows w' o (Json.Core.keep t) := by
  have e := Json.Core.C40_read_back t h hs
  obtain ⟨h1, h2⟩ := C131_made [.str (Json.Core.toJson t)] w hf
  obtain ⟨⟨o, w'⟩, ho⟩ := h2.2 (Or.inr ⟨_, rfl, h0, by rw [e]; rfl⟩)
  obtain ⟨-, -, -, t', ht, hsh⟩ := h1 o w' ho
  refine ⟨o, w', ho, ?_⟩
  rcases ht with ⟨ht, -⟩ | ⟨s, ht, he⟩
  · cases ht
  · cases ht
    rw [e] at he
    cases he
    exact hsh

/-! ## Copies -/

/-- C131: a copy of an object without a marked crash thread shows the same, as does the original; nothing that is done to the threads
of the original, not even their destruction, changes what the copy shows. -/
theorem C131_dup_partial (w : World) (o : Obj) (t : CoreTrace) (h : Shows w o t) (hf : Fresh w) (hc : t.crashThread = none) :
    ∃ o' w', dup o w = .ok (.ok (o', w')) ∧ Shows w' o' t ∧ Shows w' o t ∧ (∀ p ∈ ptrs o'.items, p ∉ ptrs o.items) ∧
      ∀ w'' : World, (∀ p, p ∉ ptrs o.items → w''.thread p = w'.thread p) → Shows w'' o' t := by
  obtain ⟨o1, w1, e, hh, hi, hcr, hsg, hex, hon, hn, hm, ho, hs1⟩ := prepare_eq h
  let t' : CoreTrace := { signal := o1.signal, executable := o1.executable, onlyCrashThread := o1.onlyCrashThread, threads := t.threads }
  have et : t' = t := by
    obtain ⟨a, b, c, d, f⟩ := t
    dsimp only at hc
    subst hc
    simp only [t', CoreTrace.mk.injEq, hsg, hex, hon]
    exact ⟨h.signal, h.executable, trivial, trivial, h.only⟩
  have ec : ({ (wrap t' w1).1 with crash := o1.crash } : Obj) = (wrap t' w1).1 := by
    rw [hcr, h.unmarked hc]
    rfl
  have hd : dup o w = .ok (.ok (wrap t' w1)) := by
    unfold dup
    rw [e]
    dsimp only
    rw [hh, readAll_eq hm, Out.bind_ok]
    show Out.ok (Except.ok (({ (wrap t' w1).1 with crash := o1.crash } : Obj), (wrap t' w1).2)) = _
    rw [ec]
  rw [et] at hd
  have hlow : ∀ p ∈ ptrs o.items, p < w.next := by
    intro p hp
    by_contra hge
    have hz := hf p (by omega)
    have : ∀ {l : List (Option ThreadObj)} {cs : List CoreThread}, List.Forall₂ (ShowsThread w) l cs → p ∈ ptrs l → w.thread p ≠ none := by
      intro l cs hl
      induction hl with
      | nil => intro hp; cases hp
      | cons a _ ih =>
        obtain ⟨u, m, rfl, hu, -⟩ := a
        intro hp
        rw [ptrs_cons, List.mem_cons] at hp
        rcases hp with rfl | hp
        · rw [hu]; simp
        · exact ih hp
    exact this h.threads hp hz
  have hs := wrap_shows t w1 (by simp [hc])
  have hdis : ∀ p ∈ ptrs (wrap t w1).1.items, p ∉ ptrs o.items := by
    intro p hp hp'
    rw [show (wrap t w1).1.items = objects w1.next t.threads from rfl, ptrs_objects, List.mem_range'_1] at hp
    have := hlow p hp'
    omega
  have congr : ∀ {l : List (Option ThreadObj)} {cs : List CoreThread} {v v' : World}, (∀ p ∈ ptrs l, v'.thread p = v.thread p) →
      List.Forall₂ (ShowsThread v) l cs → List.Forall₂ (ShowsThread v') l cs := by
    intro l cs v v' hv hl
    induction hl with
    | nil => exact .nil
    | cons a _ ih =>
      refine .cons (showsThread_congr a ?_) (ih fun p hp => hv p ?_)
      · rintro u rfl
        exact hv _ (by rw [ptrs_cons]; simp)
      · obtain ⟨u, -, rfl, -⟩ := a
        rw [ptrs_cons]
        exact List.mem_cons_of_mem _ hp
  refine ⟨_, _, hd, hs, ?_, hdis, fun w'' hw => ?_⟩
  · have h1 : List.Forall₂ (ShowsThread (wrap t w1).2) o.items t.threads :=
      congr (fun p hp => add_old w1 t.threads p (by rw [hn]; exact hlow p hp)) (forall_shows h.threads hm)
    exact ⟨h.signal, h.executable, h.only, h1, h.distinct, h.unmarked, h.marked, h.stale⟩
  · exact ⟨hs.signal, hs.executable, hs.only, congr (fun p hp => hw p (hdis p hp)) hs.threads, hs.distinct, hs.unmarked, hs.marked, hs.stale⟩

/-- C131: the text of an object tells how many threads it shows. -/
theorem C131_text (w : World) (o : Obj) (t : CoreTrace) (h : Shows w o t) :
    str o = c!"Core stacktrace with " ++ natDec t.threads.length ++ c!" threads" := by
  unfold str
  rw [h.threads.length_eq]

/-! ## What does not hold -/

/-- Two threads of which the second crashed. -/
def sample : CoreTrace :=
  { signal := 11, executable := some c!"/usr/bin/a", crashThread := some 1,
    threads := [{ id := 1, frames := [{ functionName := some c!"poll" }] },
      { id := 2, frames := [{ functionName := some c!"f" }, { functionName := some c!"main" }] }] }


/-- The object for the sample. -/
def sampleObj : Obj := (wrap sample {}).1
def sampleWorld : World := (wrap sample {}).2

theorem sample_shows : Shows sampleWorld sampleObj sample :=
  wrap_shows _ _ (by decide)

example : Fresh {} := fun _ _ => rfl
example : Short.coreCrashThread sample = some 1 := by decide
example : toShortText 1 sampleObj sampleWorld = .ok (.ok c!"#1  f\n") := by
  rw [C131_short_text_partial _ _ _ sample_shows _ (by decide)]
  have : Generic.toShortText (.core sample) 1 = .ok (some c!"#1  f\n") := by decide +kernel
  rw [this]
  rfl
example : '\x00' ∉ Json.Core.toJson sample := by decide +kernel
example : Shows (wrap { sample with crashThread := none } {}).2 (wrap { sample with crashThread := none } {}).1 { sample with crashThread := none } :=
  wrap_shows _ _ (by simp)

/-- C131, not: the copy does not know the crash thread of the original (its pointer is to a thread of the original). -/
theorem C131_not_dup_crash : ∃ w o t o' w' c, Shows w o t ∧ Fresh w ∧ dup o w = .ok (.ok (o', w')) ∧ getCrash o w = .ok (.ok (some c)) ∧
    getCrash o' w' = .ok (.ok none) :=
  ⟨sampleWorld, sampleObj, sample, _, _, _, sample_shows, wrap_fresh _ _ (fun _ _ => rfl), rfl, rfl, rfl⟩

/-- C131, not: when the original has gone, the copy reads memory that was released. -/
theorem C131_not_dup_freed : ∃ w o t o' w', Shows w o t ∧ Fresh w ∧ dup o w = .ok (.ok (o', w')) ∧
    toShortText 0 o' (w'.free (ptrs o.items)) = .ub :=
  ⟨sampleWorld, sampleObj, sample, _, _, sample_shows, wrap_fresh _ _ (fun _ _ => rfl), rfl, rfl⟩

/-- C131, not: when the crash thread is removed from the list, the stack trace still has the pointer to it. -/
theorem C131_not_removed : ∃ w o t p, Shows w o t ∧ ptrs (o.items.drop 1) = [p] ∧
    toShortText 0 { o with items := o.items.take 1 } (w.free [p]) = .ub :=
  ⟨sampleWorld, sampleObj, sample, 2, sample_shows, rfl, rfl⟩

/-- C131, not: when all threads are removed, the methods read the threads that were there. -/
theorem C131_not_emptied : ∃ w o t, Shows w o t ∧ t.crashThread = none ∧ getBthash id 0 { o with items := [] } (w.free (ptrs o.items)) = .ub :=
  ⟨(wrap { sample with crashThread := none } {}).2, (wrap { sample with crashThread := none } {}).1, { sample with crashThread := none },
    wrap_shows _ _ (by simp), rfl, rfl⟩

end Satyr.Py.Core
