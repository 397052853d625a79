import Verif.Py.ThreadModel
import Verif.Py.ObjectsProps
import Verif.Gdb.Funs
import Verif.Gdb.Trace
import Verif.Text.Java
import Verif.Crash.Quality
import Mathlib.Data.List.Forall2
/-!
# C132: threads of GDB and Java stack traces in Python
-/
namespace Satyr.Py.Threads
open Satyr.CStr Satyr.Frames Satyr.Normalize
open Satyr.Py.Base (Exc)
open Satyr.Py.Objects (textArg textArg_ok)

variable {T F : Type}

/-! ## Specification -/

/-- What an object shows in Python: the attributes of `t`, and its frames in the list. If the list is empty, no frames are left from an
earlier list. -/
structure Shows (k : Kind T F) (w : World F) (o : Obj T) (t : T) : Prop where
  info : ∀ fs, k.set o.info fs = k.set t fs
  frames : List.Forall₂ (fun i f => ∃ p, i = some p ∧ w.frame p = some f) o.items (k.frames t)
  distinct : o.items.Nodup
  stale : o.items = [] → o.head = []

/-- The linked list is that of the Python list. -/
def Linked (o : Obj T) : Prop := o.head.map some = o.items

/-- Addresses from `next` on are free. -/
def Fresh (w : World F) : Prop := ∀ p, w.next ≤ p → w.frame p = none

/-- A thread is its frames and the rest. -/
def Kind.Lawful (k : Kind T F) : Prop := (∀ t, k.set t (k.frames t) = t) ∧ ∀ t fs, k.frames (k.set t fs) = fs

theorem gdb_lawful : gdb.Lawful := ⟨fun _ => rfl, fun _ _ => rfl⟩
theorem java_lawful : java.Lawful := ⟨fun _ => rfl, fun _ _ => rfl⟩
theorem core_lawful : core.Lawful := ⟨fun _ => rfl, fun _ _ => rfl⟩

/-! ## The linked list -/

theorem mapM_some {α : Type} (l : List α) : (l.map some).mapM id = some l := by
  induction l with
  | nil => rfl
  | cons a l ih => rw [List.map_cons, List.mapM_cons, ih]; rfl

theorem pointers {w : World F} {items : List (Option Nat)} {fs : List F}
    (h : List.Forall₂ (fun i f => ∃ p, i = some p ∧ w.frame p = some f) items fs) :
    ∃ ps : List Nat, items = ps.map some ∧ List.Forall₂ (fun p f => w.frame p = some f) ps fs := by
  induction h with
  | nil => exact ⟨[], rfl, .nil⟩
  | cons a _ ih =>
    obtain ⟨p, rfl, hp⟩ := a
    obtain ⟨ps, rfl, h⟩ := ih
    exact ⟨p :: ps, rfl, .cons hp h⟩

theorem readAll_eq {w : World F} {ps : List Nat} {fs : List F} (h : List.Forall₂ (fun p f => w.frame p = some f) ps fs) :
    w.readAll ps = .ok fs := by
  induction h with
  | nil => rfl
  | cons a _ ih =>
    rw [World.readAll, a]
    dsimp only
    rw [ih, Out.bind_ok]

/-- What the methods start from. -/
theorem prepare_eq {k : Kind T F} {w : World F} {o : Obj T} {t : T} (h : Shows k w o t) :
    ∃ o', prepare o = .ok (some o') ∧ Shows k w o' t ∧ Linked o' ∧ o'.items = o.items ∧ o'.info = o.info := by
  obtain ⟨ps, hp, hf⟩ := pointers h.frames
  have hm : o.items.mapM id = some ps := by rw [hp, mapM_some]
  unfold prepare
  rw [hm]
  cases ps with
  | nil => exact ⟨o, rfl, h, by rw [Linked, h.stale hp, hp], rfl, rfl⟩
  | cons p ps =>
    have hn : (p :: ps).Nodup := by
      have := h.distinct
      rw [hp] at this
      exact List.Nodup.of_map _ this
    dsimp only
    rw [if_pos hn]
    exact ⟨_, rfl, ⟨h.info, h.frames, h.distinct, fun e => by rw [show o.items = [] from e] at hp; cases hp⟩, hp.symm, rfl, rfl⟩

theorem linked_eq {k : Kind T F} (hk : k.Lawful) {w : World F} {o : Obj T} {t : T} (h : Shows k w o t) (hl : Linked o) : linked k o w = .ok t := by
  obtain ⟨ps, hp, hf⟩ := pointers h.frames
  have e : o.head = ps := List.map_injective_iff.2 (Option.some_injective _) (by rw [hl, hp])
  unfold linked
  rw [e, readAll_eq hf, Out.bind_ok, h.info, hk.1]

theorem method_eq {A : Type} {k : Kind T F} (hk : k.Lawful) (f : T → A) {w : World F} {o : Obj T} {t : T} (h : Shows k w o t) :
    ∃ o', method k f o w = .ok (.ok (f t, o')) ∧ Shows k w o' t ∧ Linked o' ∧ o'.items = o.items ∧ o'.info = o.info := by
  obtain ⟨o', e, hs, hl, hi⟩ := prepare_eq h
  refine ⟨o', ?_, hs, hl, hi⟩
  unfold method
  rw [e]
  dsimp only
  rw [linked_eq hk hs hl, Out.bind_ok]

theorem prepare_bad {o : Obj T} (h : none ∈ o.items) : prepare o = .ok none := by
  have : o.items.mapM id = none := by
    generalize o.items = l at h
    induction l with
    | nil => cases h
    | cons a l ih =>
      cases a with
      | none => rfl
      | some a => rw [List.mapM_cons, ih (by simpa using h)]; rfl
  unfold prepare
  rw [this]

/-! ## New objects -/

theorem wrap_frames (fs : List F) (n : Nat) (w : World F) (h : ∀ i f, fs[i]? = some f → w.frame (n + i) = some f) :
    List.Forall₂ (fun i f => ∃ p, i = some p ∧ w.frame p = some f) ((List.range' n fs.length).map some) fs := by
  induction fs generalizing n with
  | nil => exact .nil
  | cons c ts ih =>
    rw [List.length_cons, List.range'_succ, List.map_cons]
    refine .cons ⟨_, rfl, h 0 c rfl⟩ (ih (n + 1) fun i d hd => ?_)
    have := h (i + 1) d (by simpa using hd)
    rwa [show n + 1 + i = n + (i + 1) by omega]

theorem add_get (w : World F) (fs : List F) (i : Nat) (c : F) (h : fs[i]? = some c) : (w.add fs).frame (w.next + i) = some c := by
  have := (List.getElem?_eq_some_iff.1 h).1
  simp only [World.add]
  rw [if_pos (by omega), show w.next + i - w.next = i by omega, h]

theorem add_old (w : World F) (fs : List F) (p : Nat) (h : p < w.next) : (w.add fs).frame p = w.frame p := by
  simp only [World.add]
  rw [if_neg (by omega)]

/-- What a constructor gives for a thread: an object that shows it, with frames of its own; the other frames stay. -/
structure New (k : Kind T F) (w : World F) (o : Obj T) (w' : World F) (t : T) : Prop where
  shows' : Shows k w' o t
  linked : Linked o
  fresh : Fresh w'
  old : ∀ p, p < w.next → w'.frame p = w.frame p
  own : ∀ p, some p ∈ o.items → w.frame p = none

theorem wrap_new (k : Kind T F) (t : T) (w : World F) (hf : Fresh w) : New k w (wrap k t w).1 (wrap k t w).2 t where
  shows' := {
    info := fun _ => rfl
    frames := wrap_frames _ _ _ (add_get w _)
    distinct := List.Nodup.map (Option.some_injective _) List.nodup_range'
    stale := fun e => List.map_eq_nil_iff.1 e }
  linked := rfl
  fresh p hp := by
    simp only [wrap, World.add] at hp ⊢
    rw [if_neg (by omega)]
    exact hf p (by omega)
  old := add_old w _
  own p hp := by
    simp only [wrap, List.mem_map, List.mem_range'_1, Option.some.injEq, exists_eq_right] at hp
    exact hf p hp.1

/-! ## C132: constructors -/

theorem smallArg_ok {v : Value} {z : Int} : smallArg v = .ok z ↔ v.asInt = some z ∧ -2147483648 ≤ z ∧ z ≤ 2147483647 := by
  unfold smallArg intArg
  cases v.asInt with
  | none => simp
  | some y =>
    dsimp only
    by_cases hy : -2147483648 ≤ y ∧ y ≤ 2147483647
    · rw [if_pos hy]
      simp only [Except.ok.injEq, Option.some.injEq]
      constructor
      · rintro rfl; exact ⟨rfl, hy⟩
      · exact fun h => h.1
    · rw [if_neg hy]
      simp only [reduceCtorEq, Option.some.injEq, false_iff]
      rintro ⟨rfl, h⟩
      exact hy h

/-- What the arguments of `GdbThread` ask for. -/
inductive Asks : List Value → Option (Str × Bool) → Prop
  | empty : Asks [] none
  | text {s : Str} (h : '\x00' ∉ s) : Asks [.str s] (some (s, false))
  | mode {s : Str} {v : Value} {z : Int} (h : '\x00' ∉ s) (hv : v.asInt = some z) (hz : -2147483648 ≤ z ∧ z ≤ 2147483647) :
    Asks [.str s, v] (some (s, decide (z ≠ 0)))

theorem gdbArgs_ok (args : List Value) (r : Option (Str × Int)) (h : gdbArgs args = .ok r) :
    Asks args (r.map fun x => (x.1, decide (x.2 ≠ 0))) := by
  match args with
  | [] => cases h; exact .empty
  | [s] =>
    rw [gdbArgs] at h
    cases hs : textArg s with
    | error e => rw [hs] at h; cases h
    | ok t =>
      rw [hs] at h
      cases h
      obtain ⟨rfl, h0⟩ := textArg_ok.1 hs
      exact .text h0
  | [s, n] =>
    rw [gdbArgs] at h
    cases hs : textArg s with
    | error e => rw [hs] at h; cases h
    | ok t =>
      rw [hs] at h
      dsimp only at h
      cases hn : smallArg n with
      | error e => rw [hn] at h; cases h
      | ok z =>
        rw [hn] at h
        cases h
        obtain ⟨rfl, h0⟩ := textArg_ok.1 hs
        obtain ⟨hv, hz⟩ := smallArg_ok.1 hn
        exact .mode h0 hv hz
  | _ :: _ :: _ :: _ => cases h

theorem gdbArgs_asks {args : List Value} {q : Option (Str × Bool)} (h : Asks args q) :
    ∃ r, gdbArgs args = .ok r ∧ r.map (fun x => (x.1, decide (x.2 ≠ 0))) = q := by
  cases h with
  | empty => exact ⟨none, rfl, rfl⟩
  | text h => exact ⟨_, by rw [gdbArgs, textArg_ok.2 ⟨rfl, h⟩], rfl⟩
  | mode h hv hz =>
    refine ⟨_, by rw [gdbArgs, textArg_ok.2 ⟨rfl, h⟩]; dsimp only; rw [smallArg_ok.2 ⟨hv, hz⟩], rfl⟩

/-- What `GdbThread` has to show: an empty thread, the thread in the text, or the functions listed in the text. -/
def GdbWanted : Option (Str × Bool) → GdbThread → Prop
  | none, t => t = Gdb.newThread
  | some (s, false), t => ∃ rest, Gdb.parseThread s = .ok (some (t, rest))
  | some (s, true), t => t = Gdb.parseFuns s

/-- C132: `GdbThread(...)` succeeds exactly if the arguments are proper and the library reads the text; the object shows what was
read. -/
theorem C132_gdb_made (args : List Value) (w : World GdbFrame) (hf : Fresh w) :
    (∀ o w', gdbNew args w = .ok (.ok (o, w')) → ∃ q t, Asks args q ∧ GdbWanted q t ∧ New gdb w o w' t) ∧
    (∀ q t, Asks args q → GdbWanted q t → ∃ o w', gdbNew args w = .ok (.ok (o, w')) ∧ New gdb w o w' t) ∧
    (∀ s, Asks args (some (s, false)) → Gdb.parseThread s = .ok none → gdbNew args w = .ok (.error .value)) ∧
    ((¬ ∃ q, Asks args q) → ∃ e, gdbNew args w = .ok (.error e)) := by
  refine ⟨?_, ?_, ?_, ?_⟩
  · intro o w' h
    unfold gdbNew at h
    cases ha : gdbArgs args with
    | error e => rw [ha] at h; cases h
    | ok r =>
      have hr := gdbArgs_ok args r ha
      rw [ha] at h
      cases r with
      | none =>
        cases h
        exact ⟨_, _, hr, rfl, wrap_new gdb _ w hf⟩
      | some r =>
        obtain ⟨s, z⟩ := r
        dsimp only at h
        by_cases hz : z = 0
        · rw [if_pos hz] at h
          cases hp : Gdb.parseThread s with
          | ok p =>
            rw [hp, Out.bind_ok] at h
            cases p with
            | none => cases h
            | some p =>
              cases h
              refine ⟨_, p.1, hr, ?_, wrap_new gdb _ w hf⟩
              subst hz
              exact ⟨p.2, hp⟩
          | abort => rw [hp] at h; cases h
          | ub => rw [hp] at h; cases h
        · rw [if_neg hz] at h
          cases h
          refine ⟨_, _, hr, ?_, wrap_new gdb _ w hf⟩
          simp [GdbWanted, hz]
  · intro q t ha hw
    obtain ⟨r, hr, rfl⟩ := gdbArgs_asks ha
    unfold gdbNew
    rw [hr]
    cases r with
    | none =>
      cases hw
      exact ⟨_, _, rfl, wrap_new gdb _ w hf⟩
    | some r =>
      obtain ⟨s, z⟩ := r
      dsimp only
      by_cases hz : z = 0
      · subst hz
        obtain ⟨rest, hp⟩ := hw
        rw [if_pos rfl, hp, Out.bind_ok]
        exact ⟨_, _, rfl, wrap_new gdb _ w hf⟩
      · rw [if_neg hz]
        have : t = Gdb.parseFuns s := by simpa [GdbWanted, hz] using hw
        subst this
        exact ⟨_, _, rfl, wrap_new gdb _ w hf⟩
  · intro s ha hp
    obtain ⟨r, hr, hq⟩ := gdbArgs_asks ha
    unfold gdbNew
    rw [hr]
    cases r with
    | none => cases hq
    | some r =>
      obtain ⟨s', z⟩ := r
      simp only [Option.map_some, Option.some.injEq, Prod.mk.injEq, decide_eq_false_iff_not, not_not] at hq
      obtain ⟨rfl, rfl⟩ := hq
      dsimp only
      rw [if_pos rfl, hp, Out.bind_ok]
      rfl
  · intro h
    unfold gdbNew
    cases ha : gdbArgs args with
    | error e => exact ⟨e, rfl⟩
    | ok r => exact absurd ⟨_, gdbArgs_ok args r ha⟩ h

/-- C132: `JavaThread(...)` likewise; it never fails otherwise than by an exception. -/
theorem C132_java_made (args : List Value) (w : World JavaFrame) (hf : Fresh w) :
    (∃ r, javaNew args w = .ok r) ∧
    (∀ o w', javaNew args w = .ok (.ok (o, w')) → ∃ t, (args = [] ∧ t = {} ∨ ∃ s rest, args = [.str s] ∧ '\x00' ∉ s ∧
      Text.Java.parseThread s = .ok (some (t, rest))) ∧ New java w o w' t) ∧
    ((∃ r, javaNew args w = .ok (.ok r)) ↔ args = [] ∨ ∃ s r, args = [.str s] ∧ '\x00' ∉ s ∧ Text.Java.parseThread s = .ok (some r)) := by
  match args with
  | [] =>
    refine ⟨⟨_, rfl⟩, fun o w' h => ?_, fun _ => Or.inl rfl, fun _ => ⟨_, rfl⟩⟩
    cases h
    exact ⟨{}, Or.inl ⟨rfl, rfl⟩, wrap_new java _ w hf⟩
  | [v] =>
    cases hv : textArg v with
    | error e =>
      have hn : javaNew [v] w = .ok (.error e) := by simp [javaNew, hv]
      refine ⟨⟨_, hn⟩, fun o w' e => by simp [hn] at e, fun ⟨r, e⟩ => by simp [hn] at e, ?_⟩
      rintro (e | ⟨s, r, e, h0, -⟩)
      · cases e
      · cases e
        rw [textArg_ok.2 ⟨rfl, h0⟩] at hv
        cases hv
    | ok s =>
      obtain ⟨rfl, h0⟩ := textArg_ok.1 hv
      obtain ⟨p, hp⟩ := Text.Java.C56_java_trace s
      have hn : javaNew [.str s] w = .ok (made java w p) := by
        rw [javaNew, hv]
        dsimp only
        rw [hp, Out.bind_ok]
      cases p with
      | none =>
        refine ⟨⟨_, hn⟩, fun o w' e => by simp [hn, made] at e, fun ⟨r, e⟩ => by simp [hn, made] at e, ?_⟩
        rintro (e | ⟨s', r, e, -, h⟩)
        · cases e
        · cases e
          rw [hp] at h
          cases h
      | some p =>
        refine ⟨⟨_, hn⟩, fun o w' e => ?_, fun _ => Or.inr ⟨s, p, rfl, h0, hp⟩, fun _ => ⟨_, hn⟩⟩
        rw [hn] at e
        cases e
        exact ⟨p.1, Or.inr ⟨s, p.2, rfl, h0, hp⟩, wrap_new java _ w hf⟩
  | _ :: _ :: _ =>
    refine ⟨⟨_, rfl⟩, fun o w' e => by simp [javaNew] at e, fun ⟨r, e⟩ => by simp [javaNew] at e, ?_⟩
    rintro (e | ⟨s, r, e, -⟩) <;> cases e

/-! ## C132: methods -/

/-- C132: `quality_counts` and `quality` count the resolved frames in the list. -/
theorem C132_gdb_quality_partial (w : World GdbFrame) (o : Obj GdbThread) (t : GdbThread) (h : Shows gdb w o t) :
    (∃ o', gdbCounts o w = .ok (.ok ((t.frames.countP fun f => decide (Crash.Resolved f), t.frames.length), o')) ∧ Shows gdb w o' t ∧ Linked o') ∧
    ∃ q o', gdbQuality o w = .ok (.ok (q, o')) ∧ Shows gdb w o' t ∧ Linked o' ∧
      (t.frames ≠ [] → q = (t.frames.countP fun f => decide (Crash.Resolved f)) / t.frames.length) ∧ (t.frames = [] → q = 1) := by
  obtain ⟨o1, e1, s1, l1, -⟩ := method_eq gdb_lawful (fun t => Crash.qualityCounts t.frames (0, 0)) h
  obtain ⟨o2, e2, s2, l2, -⟩ := method_eq gdb_lawful Crash.threadQuality h
  rw [Crash.qualityCounts_eq, Nat.zero_add, Nat.zero_add] at e1
  refine ⟨⟨o1, e1, s1, l1⟩, _, o2, e2, s2, l2, (Crash.C22_gdb_thread t).1, fun e => ?_⟩
  exact (Crash.C22_gdb_thread t).2.2.2.2 (by simp [e])

/-- C132: the same for Java threads. -/
theorem C132_java_quality_partial (w : World JavaFrame) (o : Obj JavaThread) (t : JavaThread) (h : Shows java w o t) :
    (∃ o', javaCounts o w = .ok (.ok ((t.frames.countP fun f => decide (Crash.JavaResolved f), t.frames.length), o')) ∧ Shows java w o' t ∧
      Linked o') ∧
    ∃ q o', javaQuality o w = .ok (.ok (q, o')) ∧ Shows java w o' t ∧ Linked o' ∧
      (t.frames ≠ [] → q = (t.frames.countP fun f => decide (Crash.JavaResolved f)) / t.frames.length) ∧ (t.frames = [] → q = 1) := by
  obtain ⟨o1, e1, s1, l1, -⟩ := method_eq java_lawful (fun t => Crash.javaQualityCounts t.frames (0, 0)) h
  obtain ⟨o2, e2, s2, l2, -⟩ := method_eq java_lawful Crash.javaThreadQuality h
  rw [Crash.javaQualityCounts_eq, Nat.zero_add, Nat.zero_add] at e1
  refine ⟨⟨o1, e1, s1, l1⟩, _, o2, e2, s2, l2, (Crash.C22_java_thread t).1, fun e => ?_⟩
  exact (Crash.C22_java_thread t).2.2.2.2 (by simp [e])

/-- C132: a copy shows the same, as does the original; nothing that is done to the frames of the original, not even their
destruction, changes what the copy shows. -/
theorem C132_dup_partial (k : Kind T F) (hk : k.Lawful) (w : World F) (o : Obj T) (t : T) (h : Shows k w o t) (hf : Fresh w) :
    ∃ o' o1 w', dup k o w = .ok (.ok (o', o1, w')) ∧ Shows k w' o' t ∧ Linked o' ∧ Shows k w' o1 t ∧ Linked o1 ∧ o1.items = o.items ∧
      (∀ i ∈ o'.items, i ∉ o.items) ∧ ∀ w'' : World F, (∀ p, some p ∉ o.items → w''.frame p = w'.frame p) → Shows k w'' o' t := by
  obtain ⟨o1, e, hs, hl, hi, -⟩ := method_eq hk id h
  have hn := wrap_new k t w hf
  have hlive : ∀ p, some p ∈ o.items → w.frame p ≠ none := by
    intro p hp
    obtain ⟨ps, hps, hf'⟩ := pointers h.frames
    rw [hps] at hp
    have hp' : p ∈ ps := by simpa using hp
    clear hps hp
    generalize k.frames t = fs at hf'
    induction hf' with
    | nil => cases hp'
    | cons a _ ih =>
      rcases List.mem_cons.1 hp' with rfl | hp'
      · rw [a]; simp
      · exact ih hp'
  have hlow : ∀ p, some p ∈ o.items → p < w.next := by
    intro p hp
    by_contra hge
    exact hlive p hp (hf p (by omega))
  have hdis : ∀ i ∈ (wrap k t w).1.items, i ∉ o.items := by
    intro i hi hi'
    obtain ⟨p, -, rfl⟩ := List.mem_map.1 hi
    exact hlive p hi' (hn.own p hi)
  have congr : ∀ {l : List (Option Nat)} {fs : List F} {v v' : World F}, (∀ p, some p ∈ l → v'.frame p = v.frame p) →
      List.Forall₂ (fun i f => ∃ p, i = some p ∧ v.frame p = some f) l fs →
      List.Forall₂ (fun i f => ∃ p, i = some p ∧ v'.frame p = some f) l fs := by
    intro l fs v v' hv hl
    induction hl with
    | nil => exact .nil
    | cons a _ ih =>
      obtain ⟨p, rfl, hp⟩ := a
      exact .cons ⟨p, rfl, by rw [hv p (by simp), hp]⟩ (ih fun q hq => hv q (by simp [hq]))
  refine ⟨(wrap k t w).1, o1, (wrap k t w).2, ?_, hn.shows', hn.linked, ?_, hl, hi, hdis, fun w'' hw => ?_⟩
  · unfold dup
    rw [e, Out.bind_ok]
    rfl
  · exact ⟨hs.info, congr (fun p hp => hn.old p (hlow p (hi ▸ hp))) hs.frames, hs.distinct, hs.stale⟩
  · exact ⟨hn.shows'.info, congr (fun p hp => hw p (hdis _ hp)) hn.shows'.frames, hn.shows'.distinct, hn.shows'.stale⟩

/-- C132: `format_funs` gives the functions of the frames in the list, if the list has not changed since the linked list was made. -/
theorem C132_format_partial (w : World GdbFrame) (o : Obj GdbThread) (t : GdbThread) (h : Shows gdb w o t) (hl : Linked o) :
    gdbFormat o w = .ok (Gdb.formatFuns t) := by
  unfold gdbFormat
  rw [linked_eq gdb_lawful h hl, Out.bind_ok]

/-- C132: a thread made from the functions of another has the named frames of that, in the same order, with new numbers. -/
theorem C132_round_trip_partial (w : World GdbFrame) (o : Obj GdbThread) (t : GdbThread) (h : Shows gdb w o t) (hl : Linked o) (hf : Fresh w)
    (hc : ∀ f ∈ t.frames, Gdb.Clean f) (h0 : '\x00' ∉ Gdb.formatFuns t) : ∃ s o' w' t', gdbFormat o w = .ok s ∧
      gdbNew [.str s, .bool true] w = .ok (.ok (o', w')) ∧ New gdb w o' w' t' ∧
      t'.frames.map Gdb.names = (t.frames.filter fun f => f.functionName.isSome).map Gdb.names ∧
      t'.frames.map GdbFrame.number = List.range (t.frames.filter fun f => f.functionName.isSome).length := by
  obtain ⟨o', w', e, hn⟩ := (C132_gdb_made [.str (Gdb.formatFuns t), .bool true] w hf).2.1 _ _ (.mode (z := 1) h0 rfl (by decide)) rfl
  exact ⟨_, o', w', _, C132_format_partial w o t h hl, e, hn, Gdb.C50_round_trip t hc⟩

/-- C132: `format_funs` of a Java thread has a line for each named frame. -/
theorem C132_java_format_partial (w : World JavaFrame) (o : Obj JavaThread) (t : JavaThread) (h : Shows java w o t) (hl : Linked o) :
    javaFormat o w = .ok ((t.frames.filterMap JavaFrame.name).flatMap fun n => n ++ ['\n']) := by
  unfold javaFormat
  rw [linked_eq java_lawful h hl, Out.bind_ok]
  congr 1
  unfold javaFuns
  generalize t.frames = fs
  induction fs with
  | nil => rfl
  | cons f fs ih =>
    rw [List.flatMap_cons, ih, javaFun]
    cases hf : f.name with
    | none => rw [List.filterMap_cons_none hf]; rfl
    | some n => rw [List.filterMap_cons_some hf]; rfl

/-- Lines determine a text: names without newlines can be told from the text of `format_funs`. -/
theorem C132_java_lines (l m : List Str) (hl : ∀ n ∈ l, '\n' ∉ n) (hm : ∀ n ∈ m, '\n' ∉ n)
    (h : (l.flatMap fun n => n ++ ['\n']) = m.flatMap fun n => n ++ ['\n']) : l = m := by
  induction l generalizing m with
  | nil =>
    cases m with
    | nil => rfl
    | cons b m => simp at h
  | cons a l ih =>
    cases m with
    | nil => simp at h
    | cons b m =>
      simp only [List.flatMap_cons, List.append_assoc, List.cons_append, List.nil_append] at h
      have ha := hl a (by simp)
      have hb := hm b (by simp)
      have key : ∀ (a b r s : Str), '\n' ∉ a → '\n' ∉ b → a ++ '\n' :: r = b ++ '\n' :: s → a = b ∧ r = s := by
        intro a
        induction a with
        | nil =>
          intro b r s _ hb e
          cases b with
          | nil => simpa using e
          | cons c b =>
            simp only [List.nil_append, List.cons_append, List.cons.injEq] at e
            exact absurd (by rw [← e.1]; simp) hb
        | cons c a ih =>
          intro b r s ha hb e
          cases b with
          | nil =>
            simp only [List.nil_append, List.cons_append, List.cons.injEq] at e
            exact absurd (by rw [e.1]; simp) ha
          | cons d b =>
            simp only [List.cons_append, List.cons.injEq] at e
            obtain ⟨rfl, e⟩ := e
            obtain ⟨rfl, rfl⟩ := ih b r s (fun h => ha (by simp [h])) (fun h => hb (by simp [h])) e
            exact ⟨rfl, rfl⟩
      obtain ⟨rfl, e⟩ := key _ _ _ _ ha hb h
      rw [ih m (fun n hn => hl n (by simp [hn])) (fun n hn => hm n (by simp [hn])) e]

/-- C132: something else than a frame in the list is an error for every method that links the list. -/
theorem C132_bad_item (k : Kind T F) {A : Type} (f : T → A) (w : World F) (o : Obj T) (h : none ∈ o.items) :
    method k f o w = .ok (.error .type) ∧ dup k o w = .ok (.error .type) := by
  have e : ∀ {B : Type} (g : T → B), method k g o w = .ok (.error .type) := by
    intro B g
    unfold method
    rw [prepare_bad h]
  refine ⟨e f, ?_⟩
  unfold dup
  rw [e id, Out.bind_ok]

/-- C132: the texts of the objects. -/
theorem C132_text (w : World GdbFrame) (o : Obj GdbThread) (t : GdbThread) (h : Shows gdb w o t) (v : World JavaFrame) (p : Obj JavaThread)
    (u : JavaThread) (hu : Shows java v p u) :
    gdbStr o = c!"Thread #" ++ natDec t.number ++ c!" with " ++ natDec t.frames.length ++ c!" frames" ∧
    (∀ n, u.name = some n → javaStr p = c!"Thread " ++ n ++ c!" with " ++ natDec u.frames.length ++ c!" frames") ∧
    (u.name = none → javaStr p = c!"Thread with " ++ natDec u.frames.length ++ c!" frames") := by
  have e1 : o.info.number = t.number := by
    have := congrArg GdbThread.number (h.info [])
    exact this
  have e2 : p.info.name = u.name := by
    have := congrArg JavaThread.name (hu.info [])
    exact this
  have l1 : o.items.length = t.frames.length := h.frames.length_eq
  have l2 : p.items.length = u.frames.length := hu.frames.length_eq
  refine ⟨by rw [gdbStr, e1, l1], fun n hn => ?_, fun hn => ?_⟩
  · rw [javaStr, e2, hn, l2]
    simp
  · rw [javaStr, e2, hn, l2]
    simp

/-- C132: `CoreThread(…)` shows a thread without frames, whatever the arguments are; its text tells the number of frames in the list. -/
theorem C132_core (args : List Value) (w : World Normalize.CoreFrame) (hf : Fresh w) :
    (∃ o w', coreNew args w = .ok (.ok (o, w')) ∧ New core w o w' {}) ∧
    ∀ o t, Shows core w o t → coreStr o = c!"Thread with " ++ natDec t.frames.length ++ c!" frames" :=
  ⟨⟨_, _, rfl, wrap_new _ _ _ hf⟩, fun o t h => by rw [coreStr, show o.items.length = t.frames.length from h.frames.length_eq]⟩

example : coreStr (wrap core { frames := [{}, {}] } {}).1 = c!"Thread with 2 frames" := by decide +kernel
example : ∃ o' o1 w', dup core (wrap core { id := 7, frames := [{}, {}] } {}).1 (wrap core { id := 7, frames := [{}, {}] } {}).2
    = .ok (.ok (o', o1, w')) ∧ Shows core w' o' { id := 7, frames := [{}, {}] } := by
  obtain ⟨a, b, c, h, i, -⟩ := C132_dup_partial core core_lawful _ _ _ (wrap_new core { id := 7, frames := [{}, {}] } {} fun _ _ => rfl).shows'
    (wrap_new core { id := 7, frames := [{}, {}] } {} fun _ _ => rfl).fresh
  exact ⟨a, b, c, h, i⟩

/-! ## What does not hold -/

def sample : GdbThread :=
  { number := 1, tid := 5, frames := [{ functionName := some c!"main", libraryName := some c!"libc.so" }, { functionName := some c!"start" }] }
def sampleObj : Obj GdbThread := (wrap gdb sample {}).1
def sampleWorld : World GdbFrame := (wrap gdb sample {}).2

theorem sample_new : New gdb {} sampleObj sampleWorld sample := wrap_new _ _ _ fun _ _ => rfl

example : ∀ f ∈ sample.frames, Gdb.Clean f := by
  intro f hf n hn
  simp only [sample, List.mem_cons, List.not_mem_nil, or_false] at hf
  rcases hf with rfl | rfl <;> cases hn <;> decide
example : Gdb.formatFuns sample = c!"main libc.so\nstart\n" := by decide +kernel
example : Asks [.str c!"main", .int (-3)] (some (c!"main", true)) := .mode (z := -3) (by decide) rfl (by decide)
example : Text.Java.parseThread c!"E: m\n\tat f(A.java:1)\n" = .ok (some (⟨none, [{ name := some c!"E", message := some c!"m", isException := true },
    { name := some c!"f", fileName := some c!"A.java", fileLine := 1 }]⟩, [])) := by decide +kernel
example : New java {} (wrap java ⟨some c!"t", [{ name := some c!"f" }]⟩ {}).1 (wrap java ⟨some c!"t", [{ name := some c!"f" }]⟩ {}).2
    ⟨some c!"t", [{ name := some c!"f" }]⟩ := wrap_new _ _ _ fun _ _ => rfl

/-- The sample after a frame was removed from the list. -/
theorem sample_removed : Shows gdb sampleWorld { sampleObj with items := [some 1] } { sample with frames := sample.frames.take 1 } where
  info _ := rfl
  frames := .cons ⟨1, rfl, rfl⟩ .nil
  distinct := by decide
  stale e := by cases e

/-- C132, not: `format_funs` does not notice that the list was changed. -/
theorem C132_not_format : ∃ w o t, Shows gdb w o t ∧ gdbFormat o w ≠ .ok (Gdb.formatFuns t) ∧
    ∃ o', gdbCounts o w = .ok (.ok ((0, 1), o')) ∧ gdbFormat o' w = .ok (Gdb.formatFuns t) :=
  ⟨sampleWorld, _, _, sample_removed, by decide +kernel, _, rfl, by decide +kernel⟩

/-- C132, not: if a frame that was removed has gone, `format_funs` reads memory that was released. -/
theorem C132_not_format_freed : ∃ (w : World GdbFrame) (o : Obj GdbThread) (t : GdbThread) (ps : List Nat), Shows gdb (w.free ps) o t ∧ gdbFormat o (w.free ps) = .ub :=
  ⟨sampleWorld, { sampleObj with items := [some 1] }, { sample with frames := sample.frames.take 1 }, [2],
    ⟨fun _ => rfl, .cons ⟨1, rfl, rfl⟩ .nil, by decide, fun e => by cases e⟩, rfl⟩

/-- C132, not: when all frames are removed, the methods still count those that were there, or read memory that was released. -/
theorem C132_not_emptied : ∃ (w : World GdbFrame) (o : Obj GdbThread), o.items = [] ∧ (∃ o', gdbCounts o w = .ok (.ok ((0, 2), o'))) ∧
    gdbCounts o (w.free [1, 2]) = .ub :=
  ⟨sampleWorld, { sampleObj with items := [] }, rfl, ⟨_, rfl⟩, rfl⟩

end Satyr.Py.Threads
