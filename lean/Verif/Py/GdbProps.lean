import Verif.Py.GdbModel
import Verif.CStr.Exact
import Mathlib.Data.List.Forall2
import Mathlib.Data.List.Nodup
/-!
# C125: methods of GdbStacktrace in Python
-/
namespace Satyr.Py.Gdb
open Satyr.CStr Satyr.Normalize Satyr.Frames

/-- Addresses of C frames, and Python objects. -/
local notation "Address" => Nat
local notation "Ref" => Nat

/-! ## Specification -/

/-- What Python shows of a stack trace object: `s` is the stack trace with the same threads, with the frames of their lists, all of
which are alive. -/
structure Shows (w : World) (s : GdbTrace) : Prop where
  threads : List.Forall₂ (fun t v => t.number = v.number ∧ t.tid = v.tid ∧
    List.Forall₂ (fun x f => 0 < w.refs x ∧ w.frame (w.cOf x) = some f) t.items v.frames) w.threads s.threads
  libs : w.libs.map Prod.snd = s.libs
  crash : w.crash = s.crash
  crashTid : w.crashTid = s.crashTid

/-- A stack trace whose lists were made by the library: there are threads, no frame and no thread is twice in the lists, the thread
objects are also referenced from their creation, and there are no old linked lists where a list is empty. -/
structure Regular (w : World) : Prop where
  some : w.threads ≠ []
  frames : ((w.threads.flatMap fun t => t.items).map w.cOf).Nodup
  used : ∀ t ∈ w.threads, ∀ x ∈ t.items, x < w.objs ∧ w.cOf x < w.ptrs
  objects : (w.threads.map fun t => t.obj).Nodup
  known : ∀ t ∈ w.threads, t.obj < w.objs ∧ 2 ≤ w.refs t.obj
  stale : ∀ t ∈ w.threads, t.items = [] → t.chain = []
  libs : w.libs = [] → w.clibs = []

/-! ## Memory -/

/-- `w'` has more objects and C frames than `w`, and the same otherwise. -/
structure Ext (w w' : World) : Prop where
  frame : ∀ p < w.ptrs, w'.frame p = w.frame p
  cOf : ∀ x < w.objs, w'.cOf x = w.cOf x
  refs : ∀ x < w.objs, w'.refs x = w.refs x
  ptrs : w.ptrs ≤ w'.ptrs
  objs : w.objs ≤ w'.objs
  threads : w'.threads = w.threads
  chain : w'.chain = w.chain
  libs : w'.libs = w.libs
  clibs : w'.clibs = w.clibs
  crash : w'.crash = w.crash
  crashTid : w'.crashTid = w.crashTid
  crashframe : w'.crashframe = w.crashframe

theorem Ext.rfl {w : World} : Ext w w :=
  ⟨fun _ _ => .refl _, fun _ _ => .refl _, fun _ _ => .refl _, Nat.le_refl _, Nat.le_refl _, .refl _, .refl _, .refl _, .refl _, .refl _, .refl _, .refl _⟩

theorem Ext.trans {a b c : World} (h : Ext a b) (h' : Ext b c) : Ext a c :=
  ⟨fun p hp => (h'.frame p (Nat.lt_of_lt_of_le hp h.ptrs)).trans (h.frame p hp),
   fun p hp => (h'.cOf p (Nat.lt_of_lt_of_le hp h.objs)).trans (h.cOf p hp),
   fun p hp => (h'.refs p (Nat.lt_of_lt_of_le hp h.objs)).trans (h.refs p hp),
   Nat.le_trans h.ptrs h'.ptrs, Nat.le_trans h.objs h'.objs, h'.threads.trans h.threads, h'.chain.trans h.chain,
   h'.libs.trans h.libs, h'.clibs.trans h.clibs, h'.crash.trans h.crash, h'.crashTid.trans h.crashTid,
   h'.crashframe.trans h.crashframe⟩

/-- The C frames `ps` are allocated with the values `fs`. -/
def Chain (w : World) (ps : List Address) (fs : List GdbFrame) : Prop :=
  List.Forall₂ (fun p f => w.frame p = some f ∧ p < w.ptrs) ps fs

theorem Chain.ext {w w' : World} {ps : List Address} {fs : List GdbFrame} (h : Chain w ps fs) (e : Ext w w') : Chain w' ps fs :=
  List.Forall₂.imp (fun _ _ hx => ⟨(e.frame _ hx.2).trans hx.1, Nat.lt_of_lt_of_le hx.2 e.ptrs⟩) h

theorem Chain.lt {w : World} {ps : List Address} {fs : List GdbFrame} (h : Chain w ps fs) : ∀ p ∈ ps, p < w.ptrs := by
  induction h with
  | nil => simp
  | cons h _ ih => rintro p (_ | ⟨_, hp⟩); exacts [h.2, ih p hp]

theorem Chain.live {w : World} {ps : List Address} {fs : List GdbFrame} (h : Chain w ps fs) : ∀ p ∈ ps, (w.frame p).isSome := by
  induction h with
  | nil => simp
  | cons h _ ih => rintro p (_ | ⟨_, hp⟩); exacts [by rw [h.1]; rfl, ih p hp]

theorem readAll_of {w : World} {ps : List Address} {fs : List GdbFrame} (h : Chain w ps fs) : w.readAll ps = .ok fs := by
  induction h with
  | nil => rfl
  | cons h _ ih =>
    unfold World.readAll World.read
    rw [h.1, Out.bind_ok, ih, Out.bind_ok]

theorem alloc_ext (w : World) (f : GdbFrame) : Ext w (w.alloc f).2 where
  frame p hp := by
    have : p ≠ w.ptrs := by omega
    simp [World.alloc, update, this]
  cOf _ _ := .refl _
  refs _ _ := .refl _
  ptrs := Nat.le_succ _
  objs := Nat.le_refl _
  threads := .refl _
  chain := .refl _
  libs := .refl _
  clibs := .refl _
  crash := .refl _
  crashTid := .refl _
  crashframe := .refl _

theorem allocAll_spec (w : World) (fs : List GdbFrame) :
    Ext w (w.allocAll fs).2 ∧ Chain (w.allocAll fs).2 (w.allocAll fs).1 fs ∧ (w.allocAll fs).1.Nodup ∧
    ∀ p ∈ (w.allocAll fs).1, w.ptrs ≤ p := by
  induction fs generalizing w with
  | nil => exact ⟨Ext.rfl, .nil, List.nodup_nil, by simp [World.allocAll]⟩
  | cons f fs ih =>
    obtain ⟨h1, h2, h3, h4⟩ := ih (w.alloc f).2
    have e := alloc_ext w f
    refine ⟨e.trans h1, .cons ⟨?_, ?_⟩ h2, List.nodup_cons.2 ⟨?_, h3⟩, ?_⟩
    · show ((w.alloc f).2.allocAll fs).2.frame w.ptrs = _
      rw [h1.frame _ (by show w.ptrs < w.ptrs + 1; omega)]
      simp [World.alloc, update]
    · exact Nat.lt_of_lt_of_le (show w.ptrs < w.ptrs + 1 by omega) h1.ptrs
    · intro h
      have := h4 _ h
      simp only [World.alloc] at this
      omega
    · rintro p (_ | ⟨_, hp⟩)
      · exact Nat.le_refl _
      · exact Nat.le_trans e.ptrs (h4 p hp)

theorem newObject_ext (w : World) (p : Address) (n : Int) : Ext w (w.newObject p n).2 where
  frame _ _ := .refl _
  cOf x hx := by
    have : x ≠ w.objs := by omega
    simp [World.newObject, update, this]
  refs x hx := by
    have : x ≠ w.objs := by omega
    simp [World.newObject, update, this]
  ptrs := Nat.le_refl _
  objs := Nat.le_succ _
  threads := .refl _
  chain := .refl _
  libs := .refl _
  clibs := .refl _
  crash := .refl _
  crashTid := .refl _
  crashframe := .refl _

/-- The frames of the memory are those of `w`. -/
def SameFrames (w w' : World) : Prop := w'.frame = w.frame ∧ w'.ptrs = w.ptrs

theorem newObjects_spec (w : World) (ps : List Address) :
    Ext w (w.newObjects ps).2 ∧ SameFrames w (w.newObjects ps).2 ∧
    List.Forall₂ (fun x p => (w.newObjects ps).2.cOf x = p ∧ (w.newObjects ps).2.refs x = 2 ∧ w.objs ≤ x ∧
      x < (w.newObjects ps).2.objs) (w.newObjects ps).1 ps := by
  induction ps generalizing w with
  | nil => exact ⟨Ext.rfl, ⟨.refl _, .refl _⟩, .nil⟩
  | cons p ps ih =>
    obtain ⟨h1, h2, h3⟩ := ih (w.newObject p 2).2
    have e := newObject_ext w p 2
    have hx : w.objs < (w.newObject p 2).2.objs := by show w.objs < w.objs + 1; omega
    refine ⟨e.trans h1, ⟨h2.1.trans (.refl _), h2.2.trans (.refl _)⟩, .cons ⟨?_, ?_, Nat.le_refl _, ?_⟩ (List.Forall₂.imp ?_ h3)⟩
    · show ((w.newObject p 2).2.newObjects ps).2.cOf w.objs = p
      rw [h1.cOf _ hx]
      simp [World.newObject, update]
    · show ((w.newObject p 2).2.newObjects ps).2.refs w.objs = 2
      rw [h1.refs _ hx]
      simp [World.newObject, update]
    · exact Nat.lt_of_lt_of_le hx h1.objs
    · rintro x q ⟨a, b, c, d⟩
      exact ⟨a, b, Nat.le_trans e.objs c, d⟩

/-- The threads have the values `vs`. -/
def Threads (w : World) (ts : List ThreadObj) (vs : List GdbThread) : Prop :=
  List.Forall₂ (fun t v => t.number = v.number ∧ t.tid = v.tid ∧ Chain w t.chain v.frames) ts vs

theorem Threads.ext {w w' : World} {ts : List ThreadObj} {vs : List GdbThread} (h : Threads w ts vs) (e : Ext w w') :
    Threads w' ts vs := List.Forall₂.imp (fun _ _ hx => ⟨hx.1, hx.2.1, hx.2.2.ext e⟩) h

theorem readThreads_of {w : World} {ts : List ThreadObj} {vs : List GdbThread} (h : Threads w ts vs) :
    w.readThreads ts = .ok vs := by
  induction h with
  | nil => rfl
  | cons h _ ih =>
    unfold World.readThreads
    rw [readAll_of h.2.2, Out.bind_ok, ih, Out.bind_ok, h.1, h.2.1]

/-- Addresses of all frames. -/
def addresses (ts : List ThreadObj) : List Address := ts.flatMap fun t => t.chain

theorem dupThreads_spec {w : World} {ts : List ThreadObj} {vs : List GdbThread} (h : Threads w ts vs) :
    ∃ r w', w.dupThreads ts = .ok (r, w') ∧ Ext w w' ∧ Threads w' r vs ∧ (addresses r).Nodup ∧ ∀ p ∈ addresses r, w.ptrs ≤ p := by
  induction ts generalizing w vs with
  | nil => cases h; exact ⟨[], w, rfl, Ext.rfl, .nil, List.nodup_nil, by simp [addresses]⟩
  | cons t ts ih =>
    cases h with
    | cons h hs =>
      rename_i v vs
      obtain ⟨a1, a2, a3, a4⟩ := allocAll_spec w v.frames
      obtain ⟨r, w', h1, h2, h3, h4, h5⟩ := ih (Threads.ext (w := w) hs a1)
      refine ⟨{ t with chain := (w.allocAll v.frames).1 } :: r, w', ?_, a1.trans h2, .cons ⟨h.1, h.2.1, a2.ext h2⟩ h3, ?_, ?_⟩
      · unfold World.dupThreads
        rw [readAll_of h.2.2, Out.bind_ok]
        dsimp only
        rw [h1, Out.bind_ok]
      · show (_ ++ addresses r).Nodup
        refine List.nodup_append.2 ⟨a3, h4, ?_⟩
        rintro p hp q hq rfl
        have := a2.lt p hp
        have := h5 p hq
        omega
      · intro p hp
        rcases List.mem_append.1 (show p ∈ _ ++ addresses r from hp) with hp | hp
        · exact a4 p hp
        · exact Nat.le_trans a1.ptrs (h5 p hp)

theorem allocThreads_spec (w : World) (vs : List GdbThread) :
    Ext w (w.allocThreads vs).2 ∧ Threads (w.allocThreads vs).2 (w.allocThreads vs).1 vs ∧
    (addresses (w.allocThreads vs).1).Nodup ∧ ∀ p ∈ addresses (w.allocThreads vs).1, w.ptrs ≤ p := by
  induction vs generalizing w with
  | nil => exact ⟨Ext.rfl, .nil, List.nodup_nil, by simp [World.allocThreads, addresses]⟩
  | cons v vs ih =>
    obtain ⟨a1, a2, a3, a4⟩ := allocAll_spec w v.frames
    obtain ⟨h2, h3, h4, h5⟩ := ih (w.allocAll v.frames).2
    refine ⟨a1.trans h2, .cons ⟨rfl, rfl, a2.ext h2⟩ h3, ?_, ?_⟩
    · show (_ ++ addresses _).Nodup
      refine List.nodup_append.2 ⟨a3, h4, ?_⟩
      rintro p hp q hq rfl
      have := a2.lt p hp
      have := h5 p hq
      omega
    · intro p hp
      rcases List.mem_append.1 (show p ∈ _ ++ addresses _ from hp) with hp | hp
      · exact a4 p hp
      · exact Nat.le_trans a1.ptrs (h5 p hp)

/-- A thread object that was made for the C thread `t`. -/
def Made (w w' : World) (t t' : ThreadObj) : Prop :=
  t'.number = t.number ∧ t'.tid = t.tid ∧ t'.chain = t.chain ∧ w.objs ≤ t'.obj ∧ t'.obj < w'.objs ∧ w'.refs t'.obj = 2 ∧
  List.Forall₂ (fun x p => w'.cOf x = p ∧ w'.refs x = 2 ∧ w.objs ≤ x ∧ x < w'.objs) t'.items t.chain

theorem newThreads_spec (w : World) (ts : List ThreadObj) :
    Ext w (w.newThreads ts).2 ∧ SameFrames w (w.newThreads ts).2 ∧
    List.Forall₂ (fun t' t => Made w (w.newThreads ts).2 t t') (w.newThreads ts).1 ts ∧
    ((w.newThreads ts).1.map fun t => t.obj).Nodup := by
  induction ts generalizing w with
  | nil => exact ⟨Ext.rfl, ⟨.refl _, .refl _⟩, .nil, List.nodup_nil⟩
  | cons t ts ih =>
    have e := newObject_ext w 0 2
    have hx : w.objs < (w.newObject 0 2).2.objs := by show w.objs < w.objs + 1; omega
    obtain ⟨n1, n2, n3⟩ := newObjects_spec (w.newObject 0 2).2 t.chain
    obtain ⟨h1, h2, h3, h4⟩ := ih ((w.newObject 0 2).2.newObjects t.chain).2
    have hy := Nat.lt_of_lt_of_le hx n1.objs
    refine ⟨(e.trans n1).trans h1, ⟨h2.1.trans (n2.1.trans (.refl _)), h2.2.trans (n2.2.trans (.refl _))⟩,
      .cons ⟨rfl, rfl, rfl, Nat.le_refl _, Nat.lt_of_lt_of_le hy h1.objs, ?_, List.Forall₂.imp ?_ n3⟩ (List.Forall₂.imp ?_ h3),
      List.nodup_cons.2 ⟨?_, h4⟩⟩
    · refine ((h1.refs _ hy).trans (n1.refs _ hx)).trans ?_
      simp [World.newObject, update]
    · rintro x q ⟨a, b, c, d⟩
      exact ⟨(h1.cOf _ d).trans a, (h1.refs _ d).trans b, Nat.le_trans e.objs c, Nat.lt_of_lt_of_le d h1.objs⟩
    · rintro t' t ⟨a, b, c, d, f, g, k⟩
      have ho := Nat.le_trans e.objs n1.objs
      exact ⟨a, b, c, Nat.le_trans ho d, f, g, List.Forall₂.imp (fun _ _ ⟨p, q, r, s⟩ => ⟨p, q, Nat.le_trans ho r, s⟩) k⟩
    · intro hm
      obtain ⟨t', ht, he⟩ := List.mem_map.1 hm
      have key : ∀ {l l' : List ThreadObj} {w1 w2 : World}, List.Forall₂ (fun t' t => Made w1 w2 t t') l l' →
          ∀ x ∈ l, w1.objs ≤ x.obj := by
        intro l l' w1 w2 h
        induction h with
        | nil => simp
        | cons h _ ih => rintro x (_ | ⟨_, hx⟩); exacts [h.2.2.2.1, ih x hx]
      have := key h3 t' ht
      have h' : t'.obj = w.objs := he
      omega

/-- Only reference counts of the objects `l` differ. -/
structure Dropped (l : List Ref) (w w' : World) : Prop where
  refs : ∀ x, x ∉ l → w'.refs x = w.refs x
  rest : w' = { w with refs := w'.refs }

theorem dropThreads_spec (w : World) (ts : List ThreadObj) (hn : (ts.map fun t => t.obj).Nodup) (h : ∀ t ∈ ts, 2 ≤ w.refs t.obj) :
    ∃ w', w.dropThreads ts = .ok w' ∧ Dropped (ts.map fun t => t.obj) w w' := by
  induction ts generalizing w with
  | nil => exact ⟨w, rfl, fun _ _ => rfl, rfl⟩
  | cons t ts ih =>
    have ht := h t List.mem_cons_self
    rw [List.map_cons, List.nodup_cons] at hn
    obtain ⟨w', h1, h2, h3⟩ := ih { w with refs := update w.refs t.obj (w.refs t.obj - 1) } hn.2 (by
      intro t' ht'
      have hne : t'.obj ≠ t.obj := fun e => hn.1 (e ▸ List.mem_map.2 ⟨t', ht', rfl⟩)
      simpa [update, hne] using h t' (List.mem_cons_of_mem _ ht'))
    refine ⟨w', ?_, ?_, h3⟩
    · unfold World.dropThreads World.dropThread
      rw [if_neg (by omega), if_neg (by omega), Out.bind_ok, h1]
    · intro x hx
      rw [List.map_cons, List.mem_cons, not_or] at hx
      rw [h2 x hx.2]
      simp [update, hx.1]

theorem Threads.congr {w w' : World} (hf : w'.frame = w.frame) (hp : w'.ptrs = w.ptrs) {ts : List ThreadObj} {vs : List GdbThread}
    (h : Threads w ts vs) : Threads w' ts vs := by
  unfold Threads Chain at h ⊢
  rw [hf, hp]
  exact h

theorem items_chain {w w' : World} {n : Nat} (hf : w'.frame = w.frame) {is ps : List Nat} {fs : List GdbFrame}
    (g : List.Forall₂ (fun x p => w'.cOf x = p ∧ w'.refs x = 2 ∧ n ≤ x ∧ x < w'.objs) is ps) (h : Chain w ps fs) :
    List.Forall₂ (fun x f => 0 < w'.refs x ∧ w'.frame (w'.cOf x) = some f) is fs := by
  unfold Chain at h
  induction g generalizing fs with
  | nil => cases h; exact .nil
  | cons g _ ih =>
    cases h with
    | cons h hs =>
      refine .cons ⟨by rw [g.2.1]; decide, ?_⟩ (ih hs)
      rw [g.1, hf]
      exact h.1

theorem items_lt {w' : World} {n : Nat} {is ps : List Nat}
    (g : List.Forall₂ (fun x p => w'.cOf x = p ∧ w'.refs x = 2 ∧ n ≤ x ∧ x < w'.objs) is ps) : ∀ x ∈ is, x < w'.objs := by
  induction g with
  | nil => simp
  | cons h _ ih => rintro x (_ | ⟨_, hx⟩); exacts [h.2.2.2, ih x hx]

theorem chain_items {w : World} {is : List Nat} {fs : List GdbFrame}
    (h : List.Forall₂ (fun x f => 0 < w.refs x ∧ w.frame (w.cOf x) = some f) is fs) (hu : ∀ x ∈ is, w.cOf x < w.ptrs) :
    Chain w (is.map w.cOf) fs := by
  unfold Chain
  rw [List.forall₂_map_left_iff]
  induction h with
  | nil => exact .nil
  | cons hx _ ih => exact .cons ⟨hx.2, hu _ List.mem_cons_self⟩ (ih fun x hm => hu x (List.mem_cons_of_mem _ hm))

/-- The world after new thread objects were made for the threads `ts`. -/
theorem shows_new {w : World} {ts : List ThreadObj} {vs : List GdbThread} (h : Threads w ts vs) (hn : (addresses ts).Nodup)
    (hne : ts ≠ []) (hl : w.libs = [] → w.clibs = []) (c : Option GdbFrame) (i : Nat) :
    Shows { (w.newThreads ts).2 with threads := (w.newThreads ts).1, chain := (w.newThreads ts).1, crash := c, crashTid := i }
      { threads := vs, libs := w.libs.map Prod.snd, crash := c, crashTid := i } ∧
    Regular { (w.newThreads ts).2 with threads := (w.newThreads ts).1, chain := (w.newThreads ts).1, crash := c, crashTid := i } := by
  obtain ⟨h1, ⟨h2, h2'⟩, h3, h4⟩ := newThreads_spec w ts
  generalize (w.newThreads ts).1 = rs at h3 h4 ⊢
  generalize (w.newThreads ts).2 = w' at h1 h2 h2' h3 ⊢
  have hitems : ∀ t' t : ThreadObj, Made w w' t t' → t'.items.map w'.cOf = t.chain := by
    rintro t' t ⟨-, -, -, -, -, -, k⟩
    generalize t'.items = is at k
    generalize t.chain = ps at k
    induction k with
    | nil => rfl
    | cons h _ ih => rw [List.map_cons, h.1, ih]
  refine ⟨⟨?_, by rw [← h1.libs], rfl, rfl⟩, ⟨?_, ?_, ?_, h4, ?_, ?_, ?_⟩⟩
  · show List.Forall₂ _ rs vs
    clear hn hne h4
    unfold Threads at h
    induction h3 generalizing vs with
    | nil => cases h; exact .nil
    | cons hm _ ih =>
      cases h with
      | cons h hs =>
        obtain ⟨a, b, c, d, e, f, g⟩ := hm
        refine .cons ⟨a.trans h.1, b.trans h.2.1, ?_⟩ (ih hs)
        exact items_chain h2 g h.2.2
  · show rs ≠ []
    rintro rfl
    cases h3
    exact hne rfl
  · show ((rs.flatMap fun t => t.items).map w'.cOf).Nodup
    have : (rs.flatMap fun t => t.items).map w'.cOf = addresses ts := by
      clear h hn hne h4
      unfold addresses
      induction h3 with
      | nil => rfl
      | cons hm _ ih => rw [List.flatMap_cons, List.flatMap_cons, List.map_append, ih, hitems _ _ hm]
    rw [this]
    exact hn
  · show ∀ t ∈ rs, ∀ x ∈ t.items, x < w'.objs ∧ w'.cOf x < w'.ptrs
    clear hn hne h4
    unfold Threads at h
    induction h3 generalizing vs with
    | nil => simp
    | cons hm _ ih =>
      cases h with
      | cons h hs =>
        rintro t (_ | ⟨_, ht⟩) x hx
        · have : w'.cOf x ∈ _ := List.mem_map_of_mem (f := w'.cOf) hx
          rw [hitems _ _ hm] at this
          rw [h2']
          refine ⟨?_, h.2.2.lt _ this⟩
          exact items_lt hm.2.2.2.2.2.2 x hx
        · exact ih hs t ht x hx
  · show ∀ t ∈ rs, t.obj < w'.objs ∧ 2 ≤ w'.refs t.obj
    clear h hn hne h4
    induction h3 with
    | nil => simp
    | cons hm _ ih =>
      rintro t (_ | ⟨_, ht⟩)
      · exact ⟨hm.2.2.2.2.1, by rw [hm.2.2.2.2.2.1]⟩
      · exact ih t ht
  · show ∀ t ∈ rs, t.items = [] → t.chain = []
    clear h hn hne h4
    induction h3 with
    | nil => simp
    | cons hm _ ih =>
      rintro t (_ | ⟨_, ht⟩) hi
      · have := hitems _ _ hm
        rw [hi] at this
        rw [hm.2.2.1, ← this]
        rfl
      · exact ih t ht hi
  · show w'.libs = [] → w'.clibs = []
    rw [h1.libs, h1.clibs]
    exact hl

/-- What the lists and the linked lists of a stack trace have to do with each other before the lists are made anew. -/
structure Ready (w : World) (vs : List GdbThread) : Prop where
  threads : Threads w w.chain vs
  some : w.chain ≠ []
  objects : (w.threads.map fun t => t.obj).Nodup
  known : ∀ t ∈ w.threads, t.obj < w.objs ∧ 2 ≤ w.refs t.obj
  libs : w.libs = [] → w.clibs = []

theorem rebuild_spec {w : World} {vs : List GdbThread} (h : Ready w vs) :
    ∃ w', w.rebuild = .ok w' ∧ Shows w' { threads := vs, libs := w.libs.map Prod.snd, crash := w.crash, crashTid := w.crashTid } ∧
      Regular w' ∧ (∀ p < w.ptrs, w'.frame p = w.frame p) ∧ (∀ x < w.objs, w'.cOf x = w.cOf x) ∧
      (∀ x < w.objs, x ∉ w.threads.map (fun t => t.obj) → w'.refs x = w.refs x) ∧ w'.crashframe = w.crashframe := by
  obtain ⟨r, w1, h1, h2, h3, h4, h5⟩ := dupThreads_spec h.threads
  have hk : ∀ t ∈ w.threads, 2 ≤ w1.refs t.obj := by
    intro t ht
    rw [h2.refs _ (h.known t ht).1]
    exact (h.known t ht).2
  obtain ⟨w2, h6, h7, h8⟩ := dropThreads_spec w1 w.threads h.objects hk
  have h3' : Threads w2 r vs := h3.congr (by rw [h8]) (by rw [h8])
  have hr : r ≠ [] := by
    rintro rfl
    cases h3'
    have := h.threads
    cases hc : w.chain with
    | nil => exact h.some hc
    | cons a b => rw [hc] at this; cases this
  have e1 : w2.libs = w.libs := by rw [h8]; exact h2.libs
  have e2 : w2.clibs = w.clibs := by rw [h8]; exact h2.clibs
  have e3 : w2.crash = w.crash := by rw [h8]; exact h2.crash
  have e4 : w2.crashTid = w.crashTid := by rw [h8]; exact h2.crashTid
  obtain ⟨n1, n2, n3, n4⟩ := newThreads_spec w2 r
  have e5 := n1.crash
  have e6 := n1.crashTid
  obtain ⟨s1, s2⟩ := shows_new h3' h4 hr (by rw [e1, e2]; exact h.libs) (w2.newThreads r).2.crash (w2.newThreads r).2.crashTid
  refine ⟨{ (w2.newThreads r).2 with threads := (w2.newThreads r).1, chain := (w2.newThreads r).1 }, ?_, ?_, s2, ?_, ?_, ?_, ?_⟩
  · unfold World.rebuild
    rw [if_neg h.some, h1, Out.bind_ok]
    dsimp only
    rw [h2.threads, h6, Out.bind_ok]
  · rw [e1] at s1
    rw [← e3, ← e4, ← e5, ← e6]
    exact s1
  · intro p hp
    show (w2.newThreads r).2.frame p = _
    rw [n2.1, h8]
    exact h2.frame p hp
  · intro x hx
    show (w2.newThreads r).2.cOf x = _
    rw [n1.cOf x (by rw [h8]; exact Nat.lt_of_lt_of_le hx h2.objs), h8]
    exact h2.cOf x hx
  · intro x hx hm
    show (w2.newThreads r).2.refs x = _
    rw [n1.refs x (by rw [h8]; exact Nat.lt_of_lt_of_le hx h2.objs), h7 x hm]
    exact h2.refs x hx
  · show (w2.newThreads r).2.crashframe = _
    rw [n1.crashframe, h8]
    exact h2.crashframe

/-! ## The linked lists that are made of the Python lists -/

theorem prepare_spec {w : World} {s : GdbTrace} (h : Shows w s) (hr : Regular w) :
    Ready w.prepare s.threads ∧ w.prepare.readTrace = .ok s ∧ (addresses w.prepare.chain).Nodup ∧
    addresses w.prepare.chain = (w.threads.flatMap fun t => t.items).map w.cOf := by
  have hne : w.threads.map (ThreadObj.prepare w.cOf) ≠ [] := by simpa using hr.some
  have hc : w.prepare.chain = w.threads.map (ThreadObj.prepare w.cOf) := by
    show (if _ then _ else _) = _
    rw [if_neg hne]
  have hch : ∀ t ∈ w.threads, (t.prepare w.cOf).chain = t.items.map w.cOf := by
    intro t ht
    show (if _ then _ else _) = _
    split
    · rename_i he
      rw [hr.stale t ht he, he]; rfl
    · rfl
  have ha : addresses w.prepare.chain = (w.threads.flatMap fun t => t.items).map w.cOf := by
    rw [hc]
    unfold addresses
    rw [List.map_flatMap, List.flatMap_map]
    exact List.flatMap_congr hch
  have hth : Threads w.prepare w.prepare.chain s.threads := by
    rw [hc]
    unfold Threads
    rw [List.forall₂_map_left_iff]
    have h' := h.threads
    have hu := hr.used
    generalize w.threads = ts at h' hu hch
    generalize s.threads = vs at h'
    induction h' with
    | nil => exact .nil
    | cons ht _ ih =>
      refine .cons ⟨ht.1, ht.2.1, ?_⟩
        (ih (fun t htm => hu t (List.mem_cons_of_mem _ htm)) (fun t htm => hch t (List.mem_cons_of_mem _ htm)))
      rw [hch _ List.mem_cons_self]
      exact chain_items (w := w) ht.2.2 (fun x hx => (hu _ List.mem_cons_self x hx).2)
  have hlib : w.prepare.clibs = s.libs := by
    show (if _ then _ else _) = _
    rw [← h.libs]
    split
    · rename_i he
      rw [hr.libs he, he]; rfl
    · rfl
  have hobj : w.prepare.threads.map (fun t => t.obj) = w.threads.map fun t => t.obj := by
    show (w.threads.map _).map _ = _
    rw [List.map_map]
    rfl
  refine ⟨⟨hth, by rw [hc]; exact hne, by rw [hobj]; exact hr.objects, ?_, ?_⟩, ?_, by rw [ha]; exact hr.frames, ha⟩
  · intro t ht
    obtain ⟨t', ht', rfl⟩ := List.mem_map.1 ht
    exact hr.known t' ht'
  · intro he
    rw [hlib, ← h.libs, show w.libs = [] from he]
    rfl
  · unfold World.readTrace
    rw [readThreads_of hth, Out.bind_ok, hlib]
    have : w.prepare.crash = s.crash := h.crash
    have h2 : w.prepare.crashTid = s.crashTid := h.crashTid
    rw [this, h2]

/-! ## Cutting and naming frames -/

theorem freeAll_spec (w : World) (ps : List Address) (hn : ps.Nodup) (hl : ∀ p ∈ ps, (w.frame p).isSome) :
    w.freeAll ps = .ok { w with frame := fun p => if p ∈ ps then none else w.frame p } := by
  induction ps generalizing w with
  | nil => simp [World.freeAll]
  | cons p ps ih =>
    rw [List.nodup_cons] at hn
    unfold World.freeAll World.free
    cases hp : w.frame p with
    | none => have := hl p List.mem_cons_self; rw [hp] at this; cases this
    | some f =>
      dsimp only
      rw [Out.bind_ok, ih _ hn.2]
      · congr 2
        funext q
        by_cases hq : q = p
        · subst hq; simp [update]
        · simp [update, hq]
      · intro q hq
        have : q ≠ p := by rintro rfl; exact hn.1 hq
        simpa [update, this] using hl q (List.mem_cons_of_mem _ hq)

theorem Chain.outside {w w' : World} {ps : List Address} {fs : List GdbFrame} (h : Chain w ps fs)
    (hf : ∀ p ∈ ps, w'.frame p = w.frame p) (hp : w'.ptrs = w.ptrs) : Chain w' ps fs := by
  unfold Chain at h ⊢
  induction h with
  | nil => exact .nil
  | cons h _ ih =>
    exact .cons ⟨(hf _ List.mem_cons_self).trans h.1, by rw [hp]; exact h.2⟩ (ih fun p hm => hf p (List.mem_cons_of_mem _ hm))

theorem Threads.outside {w w' : World} {ts : List ThreadObj} {vs : List GdbThread} (h : Threads w ts vs)
    (hf : ∀ p ∈ addresses ts, w'.frame p = w.frame p) (hp : w'.ptrs = w.ptrs) : Threads w' ts vs := by
  unfold Threads at h ⊢
  induction h with
  | nil => exact .nil
  | cons h _ ih =>
    refine .cons ⟨h.1, h.2.1, h.2.2.outside (fun p hm => hf p ?_) hp⟩ (ih fun p hm => hf p ?_)
    · exact List.mem_append.2 (.inl hm)
    · exact List.mem_append.2 (.inr hm)

theorem Threads.live {w : World} {ts : List ThreadObj} {vs : List GdbThread} (h : Threads w ts vs) :
    ∀ p ∈ addresses ts, (w.frame p).isSome := by
  unfold Threads at h
  induction h with
  | nil => simp [addresses]
  | cons h _ ih =>
    intro p hp
    rcases List.mem_append.1 (show p ∈ _ ++ addresses _ from hp) with hp | hp
    · exact h.2.2.live p hp
    · exact ih p hp

theorem Threads.lt {w : World} {ts : List ThreadObj} {vs : List GdbThread} (h : Threads w ts vs) :
    ∀ p ∈ addresses ts, p < w.ptrs := by
  unfold Threads at h
  induction h with
  | nil => simp [addresses]
  | cons h _ ih =>
    intro p hp
    rcases List.mem_append.1 (show p ∈ _ ++ addresses _ from hp) with hp | hp
    · exact h.2.2.lt p hp
    · exact ih p hp

/-- The frames beyond the depth. -/
def below (d : Nat) (ts : List ThreadObj) : List Address := ts.flatMap fun t => t.chain.drop d

theorem below_subset (d : Nat) (ts : List ThreadObj) : ∀ p ∈ below d ts, p ∈ addresses ts := by
  intro p hp
  obtain ⟨t, ht, hp⟩ := List.mem_flatMap.1 hp
  exact List.mem_flatMap.2 ⟨t, ht, List.mem_of_mem_drop hp⟩

theorem Chain.take {w : World} {ps : List Address} {fs : List GdbFrame} (h : Chain w ps fs) (d : Nat) :
    Chain w (ps.take d) (fs.take d) := List.forall₂_take d h

theorem cut_spec (w : World) (d : Nat) (ts : List ThreadObj) (vs : List GdbThread) (h : Threads w ts vs)
    (hn : (addresses ts).Nodup) :
    w.cutThreads d ts = .ok (ts.map fun t => { t with chain := t.chain.take d },
      { w with frame := fun p => if p ∈ below d ts then none else w.frame p }) := by
  induction ts generalizing w vs with
  | nil => simp [World.cutThreads, below]
  | cons t ts ih =>
    cases h with
    | cons h hs =>
      rename_i v vs
      obtain ⟨n1, n2, n3⟩ := List.nodup_append.1 (show (t.chain ++ addresses ts).Nodup from hn)
      unfold World.cutThreads
      rw [readAll_of (h.2.2.take d), Out.bind_ok,
        freeAll_spec _ _ (n1.sublist (List.drop_sublist _ _)) (fun p hp => h.2.2.live p (List.mem_of_mem_drop hp)), Out.bind_ok,
        ih _ vs _ n2, Out.bind_ok]
      · dsimp only
        rw [List.map_cons]
        congr 3
        funext p
        show (if p ∈ below d ts then none else if p ∈ t.chain.drop d then none else w.frame p) = _
        by_cases h1 : p ∈ below d ts
        · rw [if_pos h1, if_pos (show p ∈ below d (t :: ts) from List.mem_append.2 (.inr h1))]
        · rw [if_neg h1]
          by_cases h2 : p ∈ t.chain.drop d
          · rw [if_pos h2, if_pos (show p ∈ below d (t :: ts) from List.mem_append.2 (.inl h2))]
          · rw [if_neg h2, if_neg]
            intro h3
            rcases List.mem_append.1 (show p ∈ _ ++ below d ts from h3) with h3 | h3
            · exact h2 h3
            · exact h1 h3
      · refine Threads.outside (w := w) hs (fun p hp => ?_) rfl
        show (if p ∈ t.chain.drop d then none else w.frame p) = _
        rw [if_neg]
        intro h1
        exact n3 p (List.mem_of_mem_drop h1) p hp rfl

theorem cut_threads {w w' : World} {d : Nat} {ts : List ThreadObj} {vs : List GdbThread} (h : Threads w ts vs)
    (hn : (addresses ts).Nodup) (hf : ∀ p, p ∉ below d ts → w'.frame p = w.frame p) (hp : w'.ptrs = w.ptrs) :
    Threads w' (ts.map fun t => { t with chain := t.chain.take d }) (vs.map fun v => { v with frames := v.frames.take d }) := by
  replace hf : ∀ p ∈ addresses ts, p ∉ below d ts → w'.frame p = w.frame p := fun p _ => hf p
  unfold Threads at h ⊢
  rw [List.forall₂_map_left_iff, List.forall₂_map_right_iff]
  induction h with
  | nil => exact .nil
  | @cons t v ts vs h hs ih =>
    obtain ⟨n1, n2, n3⟩ := List.nodup_append.1 (show (t.chain ++ addresses ts).Nodup from hn)
    refine .cons ⟨h.1, h.2.1, (h.2.2.take d).outside (fun p hm => ?_) hp⟩ (ih n2 fun p hm hb => ?_)
    · refine hf p (List.mem_append.2 (.inl (List.mem_of_mem_take hm))) fun h3 => ?_
      rcases List.mem_append.1 (show p ∈ _ ++ below d ts from h3) with h3 | h3
      · have := List.take_append_drop d t.chain
        rw [← this] at n1
        exact (List.nodup_append.1 n1).2.2 p hm p h3 rfl
      · exact n3 p (List.mem_of_mem_take hm) p (below_subset d ts p h3) rfl
    · refine hf p (List.mem_append.2 (.inr hm)) fun h3 => ?_
      rcases List.mem_append.1 (show p ∈ _ ++ below d ts from h3) with h3 | h3
      · exact n3 p (List.mem_of_mem_drop h3) p hm rfl
      · exact hb h3

/-- The same thread with the names of the libraries in its frames (C49). -/
def Named (libs : List Sharedlib) (v v' : GdbThread) : Prop :=
  v'.number = v.number ∧ v'.tid = v.tid ∧ Satyr.Gdb.setLibnames libs v.frames = .ok v'.frames

theorem setLibnames_length {libs : List Sharedlib} {fs fs' : List GdbFrame} (h : Satyr.Gdb.setLibnames libs fs = .ok fs') :
    fs'.length = fs.length := by
  induction fs generalizing fs' with
  | nil => cases h; rfl
  | cons f fs ih =>
    unfold Satyr.Gdb.setLibnames at h
    split at h
    · obtain ⟨r, h1, h2⟩ := bind_ok_iff.1 h
      cases h2
      rw [List.length_cons, List.length_cons, ih h1]
    · split at h
      · cases h
      · obtain ⟨r, h1, h2⟩ := bind_ok_iff.1 h
        cases h2
        rw [List.length_cons, List.length_cons, ih h1]

theorem writeAll_spec (w : World) (ps : List Address) (fs fs' : List GdbFrame) (hn : ps.Nodup) (h : Chain w ps fs)
    (hl : fs'.length = fs.length) :
    ∃ g, w.writeAll ps fs' = { w with frame := g } ∧ Chain { w with frame := g } ps fs' ∧ ∀ p, p ∉ ps → g p = w.frame p := by
  induction ps generalizing w fs fs' with
  | nil =>
    cases h
    cases fs' with
    | nil => exact ⟨w.frame, rfl, .nil, fun _ _ => rfl⟩
    | cons => simp at hl
  | cons p ps ih =>
    cases h with | @cons _ f _ fs hp hs =>
    cases fs' with
    | nil => simp at hl
    | cons f' fs' =>
      rw [List.nodup_cons] at hn
      obtain ⟨g, h1, h2, h3⟩ := ih { w with frame := update w.frame p (some f') } fs fs' hn.2
        (Chain.outside (w := w) (w' := { w with frame := update w.frame p (some f') }) hs (by
          intro q hq
          have : q ≠ p := by rintro rfl; exact hn.1 hq
          simp [update, this]) rfl)
        (by simpa using hl)
      refine ⟨g, h1, .cons ⟨?_, hp.2⟩ h2, ?_⟩
      · show g p = _
        rw [h3 p hn.1]
        simp [update]
      · intro q hq
        rw [List.mem_cons, not_or] at hq
        rw [h3 q hq.2]
        simp [update, hq.1]

theorem name_spec (w : World) (ts : List ThreadObj) (vs vs' : List GdbThread) (h : Threads w ts vs) (hn : (addresses ts).Nodup)
    (hv : List.Forall₂ (Named w.clibs) vs vs') :
    ∃ g, w.nameThreads ts = .ok { w with frame := g } ∧ Threads { w with frame := g } ts vs' ∧
      ∀ p, p ∉ addresses ts → g p = w.frame p := by
  induction ts generalizing w vs vs' with
  | nil => cases h; cases hv; exact ⟨w.frame, rfl, .nil, fun _ _ => rfl⟩
  | cons t ts ih =>
    cases h with | @cons _ v _ vs h hs =>
    cases hv with
    | @cons _ v' _ vs' hv hvs =>
      obtain ⟨n1, n2, n3⟩ := List.nodup_append.1 (show (t.chain ++ addresses ts).Nodup from hn)
      obtain ⟨g, g1, g2, g3⟩ := writeAll_spec w t.chain v.frames v'.frames n1 h.2.2 (setLibnames_length hv.2.2)
      have hs' : Threads { w with frame := g } ts vs := Threads.outside (w := w) hs (fun p hp => g3 p fun hm => n3 p hm p hp rfl) rfl
      obtain ⟨k, k1, k2, k3⟩ := ih { w with frame := g } vs vs' hs' n2 hvs
      refine ⟨k, ?_, .cons ⟨h.1.trans hv.1.symm, h.2.1.trans hv.2.1.symm, ?_⟩ k2, ?_⟩
      · unfold World.nameThreads
        rw [readAll_of h.2.2, Out.bind_ok, hv.2.2, Out.bind_ok, g1, k1]
      · exact Chain.outside (w := { w with frame := g }) g2 (fun p hm => k3 p fun hp => n3 p hm p hp rfl) rfl
      · intro p hp
        have hp' : p ∉ t.chain ∧ p ∉ addresses ts := by
          constructor
          · exact fun hm => hp (List.mem_append.2 (.inl hm))
          · exact fun hm => hp (List.mem_append.2 (.inr hm))
        rw [k3 p hp'.2]
        exact g3 p hp'.1

/-! ## C125: the methods -/

/-- C125: limiting the depth makes new lists, with the first frames of each thread; the library is called with the threads that
Python shows. -/
theorem C125_limit_partial (w : World) (s : GdbTrace) (depth : Int) (h : Shows w s) (hr : Regular w) (hd : 0 < depth) :
    ∃ w', limitFrameDepth depth w = .ok (.ok (), w') ∧ Regular w' ∧
      Shows w' { s with threads := s.threads.map fun t => { t with frames := t.frames.take depth.toNat } } := by
  obtain ⟨p1, p2, p3, p4⟩ := prepare_spec h hr
  have hc := cut_spec w.prepare depth.toNat w.prepare.chain s.threads p1.threads p3
  have hready : Ready { w.prepare with
      frame := fun p => if p ∈ below depth.toNat w.prepare.chain then none else w.prepare.frame p
      chain := w.prepare.chain.map fun t => { t with chain := t.chain.take depth.toNat } }
      (s.threads.map fun t => { t with frames := t.frames.take depth.toNat }) :=
    ⟨cut_threads (w := w.prepare) p1.threads p3 (fun p hp => if_neg hp) rfl, by simpa using p1.some, p1.objects, p1.known, p1.libs⟩
  obtain ⟨w', r1, r2, r3, -⟩ := rebuild_spec hready
  refine ⟨w', ?_, r3, ?_⟩
  · unfold limitFrameDepth
    dsimp only
    rw [if_neg (by omega), hc, Out.bind_ok]
    dsimp only
    rw [r1, Out.bind_ok]
  · have e1 : w.prepare.libs.map Prod.snd = s.libs := h.libs
    have e2 : w.prepare.crash = s.crash := h.crash
    have e3 : w.prepare.crashTid = s.crashTid := h.crashTid
    dsimp only at r2
    rw [e1, e2, e3] at r2
    exact r2

/-- C125: setting the names of the libraries makes new lists, with the frames as the library names them. -/
theorem C125_libnames_partial (w : World) (s : GdbTrace) (vs : List GdbThread) (h : Shows w s) (hr : Regular w)
    (hv : List.Forall₂ (Named s.libs) s.threads vs) :
    ∃ w', setLibnames w = .ok (.ok (), w') ∧ Regular w' ∧ Shows w' { s with threads := vs } := by
  obtain ⟨p1, p2, p3, p4⟩ := prepare_spec h hr
  have hl : w.prepare.clibs = s.libs := by
    unfold World.readTrace at p2
    rw [readThreads_of p1.threads, Out.bind_ok, Out.ok.injEq] at p2
    rw [← p2]
  obtain ⟨g, g1, g2, g3⟩ := name_spec w.prepare w.prepare.chain s.threads vs p1.threads p3 (by rw [hl]; exact hv)
  have hready : Ready { w.prepare with frame := g } vs := ⟨g2, p1.some, p1.objects, p1.known, p1.libs⟩
  obtain ⟨w', r1, r2, r3, -⟩ := rebuild_spec hready
  refine ⟨w', ?_, r3, ?_⟩
  · unfold setLibnames
    dsimp only
    rw [g1, Out.bind_ok, r1, Out.bind_ok]
  · have e1 : w.prepare.libs.map Prod.snd = s.libs := h.libs
    have e2 : w.prepare.crash = s.crash := h.crash
    have e3 : w.prepare.crashTid = s.crashTid := h.crashTid
    dsimp only at r2
    rw [e1, e2, e3] at r2
    exact r2

theorem normalizeThreads_length {ts vs : List GdbThread} (h : Crash.normalizeThreads ts = .ok vs) : vs.length = ts.length := by
  induction ts generalizing vs with
  | nil => cases h; rfl
  | cons t ts ih =>
    unfold Crash.normalizeThreads at h
    obtain ⟨a, -, h⟩ := bind_ok_iff.1 h
    obtain ⟨b, hb, h⟩ := bind_ok_iff.1 h
    cases h
    rw [List.length_cons, List.length_cons, ih hb]

/-- C125: normalizing makes new lists, with what the library's normalization gives; all frames that were there before stay alive and
are unchanged. -/
theorem C125_normalize (w : World) (s s' : GdbTrace) (h : Shows w s) (hr : Regular w) (hn : Crash.normalizeTrace s = .ok s') :
    ∃ w', normalize w = .ok (.ok (), w') ∧ Regular w' ∧ Shows w' s' ∧
      ∀ t ∈ w.threads, ∀ x ∈ t.items, w'.frame (w.cOf x) = w.frame (w.cOf x) := by
  obtain ⟨p1, p2, p3, p4⟩ := prepare_spec h hr
  obtain ⟨w1, d1, d2, d3⟩ := dropThreads_spec w.prepare w.prepare.threads p1.objects (fun t ht => (p1.known t ht).2)
  obtain ⟨a1, a2, a3, a4⟩ := allocThreads_spec w1 s'.threads
  have hs' : s'.threads ≠ [] ∧ s'.libs = s.libs := by
    unfold Crash.normalizeTrace at hn
    dsimp only at hn
    obtain ⟨ts, ht, hn⟩ := bind_ok_iff.1 hn
    cases hn
    have e : (Crash.rememberCrashTid s).threads = s.threads ∧ (Crash.rememberCrashTid s).libs = s.libs := by
      unfold Crash.rememberCrashTid
      split
      · split <;> exact ⟨rfl, rfl⟩
      · exact ⟨rfl, rfl⟩
    refine ⟨?_, e.2⟩
    have hl := normalizeThreads_length ht
    rw [e.1] at hl
    intro he
    rw [show ts = [] from he] at hl
    have h' := h.threads
    cases hs : s.threads with
    | nil =>
      rw [hs] at h'
      cases hw : w.threads with
      | nil => exact hr.some hw
      | cons => rw [hw] at h'; cases h'
    | cons => rw [hs] at hl; simp at hl
  have hne : (w1.allocThreads s'.threads).1 ≠ [] := by
    intro he
    rw [he] at a2
    unfold Threads at a2
    cases hs : s'.threads with
    | nil => exact hs'.1 hs
    | cons => rw [hs] at a2; cases a2
  have e1 : w1.libs = w.libs := by rw [d3]; rfl
  have e2 : w1.clibs = w.prepare.clibs := by rw [d3]
  have hpl : w.prepare.libs = [] → w.prepare.clibs = [] := p1.libs
  obtain ⟨s1, s2⟩ := shows_new a2 a3 hne (by rw [a1.libs, a1.clibs, e1, e2]; exact hpl) s'.crash s'.crashTid
  obtain ⟨n1, n2, -, -⟩ := newThreads_spec (w1.allocThreads s'.threads).2 (w1.allocThreads s'.threads).1
  refine ⟨_, ?_, s2, ?_, ?_⟩
  · unfold normalize
    dsimp only
    rw [p2, Out.bind_ok, hn, Out.bind_ok, d1, Out.bind_ok]
  · rw [a1.libs, e1, h.libs, ← hs'.2] at s1
    exact s1
  · intro t ht x hx
    show (World.newThreads _ _).2.frame _ = _
    rw [n2.1, a1.frame]
    · rw [d3]; rfl
    · rw [d3]
      exact (hr.used t ht x hx).2

/-- C125: the crash frame is the one that the library finds, in a new object; there are new lists with the same contents. -/
theorem C125_crash_frame_partial (w : World) (s : GdbTrace) (f : Option GdbFrame) (h : Shows w s) (hr : Regular w)
    (hf : Short.crashFrame s = .ok f) :
    (f = none → findCrashFrame w = .ok (.error .lookup, w.prepare)) ∧
    ∀ v, f = some v → ∃ w' x, findCrashFrame w = .ok (.ok x, w') ∧ Regular w' ∧ Shows w' s ∧ w'.frame (w'.cOf x) = some v ∧
      w'.crashframe = some x ∧ w'.refs x = 1 := by
  obtain ⟨p1, p2, p3, p4⟩ := prepare_spec h hr
  constructor
  · rintro rfl
    unfold findCrashFrame
    dsimp only
    rw [p2, Out.bind_ok, hf, Out.bind_ok]
  · rintro v rfl
    have a := alloc_ext w.prepare v
    have n := newObject_ext (w.prepare.alloc v).2 w.prepare.ptrs 1
    have e := a.trans n
    have hready : Ready { ((w.prepare.alloc v).2.newObject w.prepare.ptrs 1).2 with crashframe := some w.prepare.objs } s.threads := by
      refine ⟨?_, p1.some, p1.objects, ?_, p1.libs⟩
      · exact Threads.congr (w := ((w.prepare.alloc v).2.newObject w.prepare.ptrs 1).2) rfl rfl (p1.threads.ext e)
      · intro t ht
        have hk := p1.known t ht
        refine ⟨Nat.lt_of_lt_of_le hk.1 e.objs, ?_⟩
        show 2 ≤ ((w.prepare.alloc v).2.newObject w.prepare.ptrs 1).2.refs t.obj
        rw [e.refs _ hk.1]
        exact hk.2
    obtain ⟨w', r1, r2, r3, r4, r5, r6, r7⟩ := rebuild_spec hready
    have e1 : w.prepare.libs.map Prod.snd = s.libs := h.libs
    have e2 : w.prepare.crash = s.crash := h.crash
    have e3 : w.prepare.crashTid = s.crashTid := h.crashTid
    have hx : w.prepare.objs < w.prepare.objs + 1 := Nat.lt_succ_self _
    have hp : w.prepare.ptrs < w.prepare.ptrs + 1 := Nat.lt_succ_self _
    refine ⟨w', w.prepare.objs, ?_, r3, ?_, ?_, r7, ?_⟩
    · unfold findCrashFrame
      dsimp only
      rw [p2, Out.bind_ok, hf, Out.bind_ok]
      dsimp only
      have r1' : ({ ((w.prepare.alloc v).2.newObject (w.prepare.alloc v).1 1).2 with
          crashframe := some ((w.prepare.alloc v).2.newObject (w.prepare.alloc v).1 1).1 } : World).rebuild = .ok w' := r1
      rw [r1', Out.bind_ok]
      rfl
    · have : Shows w' { threads := s.threads, libs := w.prepare.libs.map Prod.snd, crash := w.prepare.crash, crashTid := w.prepare.crashTid } := r2
      rw [e1, e2, e3] at this
      exact this
    · rw [r5 _ hx]
      have : (update w.prepare.cOf w.prepare.objs w.prepare.ptrs) w.prepare.objs = w.prepare.ptrs := by simp [update]
      show w'.frame ((update w.prepare.cOf w.prepare.objs w.prepare.ptrs) w.prepare.objs) = _
      rw [this, r4 _ hp]
      show (update w.prepare.frame w.prepare.ptrs (some v)) w.prepare.ptrs = _
      simp [update]
    · rw [r6 _ hx]
      · show (update w.prepare.refs w.prepare.objs 1) w.prepare.objs = _
        simp [update]
      · intro hm
        obtain ⟨t, ht, he⟩ := List.mem_map.1 hm
        have := (p1.known t ht).1
        omega

/-- C125: the short text is the one of the library; there are new lists with the same contents. -/
theorem C125_short_text (w : World) (s : GdbTrace) (max : Int) (t : Option Str) (h : Shows w s) (hr : Regular w)
    (ht : Short.gdbText s max = .ok t) :
    (t = none → toShortText max w = .ok (.error .lookup, w.prepare)) ∧
    ∀ v, t = some v → ∃ w', toShortText max w = .ok (.ok v, w') ∧ Regular w' ∧ Shows w' s := by
  obtain ⟨p1, p2, p3, p4⟩ := prepare_spec h hr
  constructor
  · rintro rfl
    unfold toShortText
    dsimp only
    rw [p2, Out.bind_ok, ht, Out.bind_ok]
  · rintro v rfl
    obtain ⟨w', r1, r2, r3, -⟩ := rebuild_spec p1
    refine ⟨w', ?_, r3, ?_⟩
    · unfold toShortText
      dsimp only
      rw [p2, Out.bind_ok, ht, Out.bind_ok]
      dsimp only
      rw [r1, Out.bind_ok]
    · have e1 : w.prepare.libs.map Prod.snd = s.libs := h.libs
      have e2 : w.prepare.crash = s.crash := h.crash
      have e3 : w.prepare.crashTid = s.crashTid := h.crashTid
      rw [e1, e2, e3] at r2
      exact r2

/-! ## C125: histories -/

/-- The constructor: the lists of a parsed stack trace show it. -/
theorem C125_new (w : World) (s : GdbTrace) (libs : List Ref) (hs : s.threads ≠ []) (hl : libs.length = s.libs.length) :
    Regular (w.load s libs) ∧ Shows (w.load s libs) s ∧ (w.load s libs).crashframe = none := by
  have hz : (libs.zip s.libs).map Prod.snd = s.libs := List.map_snd_zip (by omega)
  have hz' : libs.zip s.libs = [] → s.libs = [] := by
    intro h
    rw [h] at hz
    exact hz.symm
  unfold World.load
  dsimp only
  generalize hw : ({ w with libs := libs.zip s.libs, clibs := s.libs, crashframe := none } : World) = w1
  have e1 : w1.libs = libs.zip s.libs := by rw [← hw]
  have e2 : w1.clibs = s.libs := by rw [← hw]
  have e3 : w1.crashframe = none := by rw [← hw]
  obtain ⟨a1, a2, a3, a4⟩ := allocThreads_spec w1 s.threads
  have hne : (w1.allocThreads s.threads).1 ≠ [] := by
    intro he
    rw [he] at a2
    unfold Threads at a2
    cases h : s.threads with
    | nil => exact hs h
    | cons => rw [h] at a2; cases a2
  obtain ⟨s1, s2⟩ := shows_new a2 a3 hne (by rw [a1.libs, a1.clibs, e1, e2]; exact hz') s.crash s.crashTid
  rw [a1.libs, e1, hz] at s1
  refine ⟨s2, s1, ?_⟩
  show (World.newThreads _ _).2.crashframe = none
  rw [(newThreads_spec _ _).1.crashframe, a1.crashframe, e3]

/-- Making the linked lists changes nothing that Python shows. -/
theorem prepare_shows {w : World} {s : GdbTrace} (h : Shows w s) (hr : Regular w) : Shows w.prepare s ∧ Regular w.prepare := by
  obtain ⟨p1, p2, p3, p4⟩ := prepare_spec h hr
  have hi : w.prepare.threads.flatMap (fun t => t.items) = w.threads.flatMap fun t => t.items := by
    show (w.threads.map _).flatMap _ = _
    rw [List.flatMap_map]
    rfl
  refine ⟨⟨?_, h.libs, h.crash, h.crashTid⟩, ⟨by simpa [World.prepare] using hr.some, ?_, ?_, p1.objects, p1.known, ?_, p1.libs⟩⟩
  · show List.Forall₂ _ (w.threads.map _) _
    rw [List.forall₂_map_left_iff]
    exact h.threads
  · rw [hi]; exact hr.frames
  · intro t ht x hx
    obtain ⟨t', ht', rfl⟩ := List.mem_map.1 ht
    exact hr.used t' ht' x hx
  · intro t ht hi
    obtain ⟨t', ht', rfl⟩ := List.mem_map.1 ht
    have hi' : t'.items = [] := hi
    show (if _ then _ else _) = _
    rw [if_pos hi', hr.stale t' ht' hi']

/-- The methods that change the lists. -/
inductive Call
  | limit (depth : Int)
  | libnames
  | normalize
  | shortText (max : Int)
  | crashFrame

/-- A call in Python; a result is kept by the caller. -/
def call : Call → World → Out World
  | .limit d, w => do return (← limitFrameDepth d w).2
  | .libnames, w => do return (← setLibnames w).2
  | .normalize, w => do return (← Gdb.normalize w).2
  | .shortText m, w => do return (← toShortText m w).2
  | .crashFrame, w => do return (← findCrashFrame w).2

def calls : List Call → World → Out World
  | [], w => .ok w
  | c :: l, w => do
    let w ← call c w
    calls l w

/-- What the library does with a stack trace. -/
inductive Does : Call → GdbTrace → GdbTrace → Prop
  | limit {d s} : 0 < d → Does (.limit d) s { s with threads := s.threads.map fun t => { t with frames := t.frames.take d.toNat } }
  | libnames {s vs} : List.Forall₂ (Named s.libs) s.threads vs → Does .libnames s { s with threads := vs }
  | normalize {s s'} : Crash.normalizeTrace s = .ok s' → Does .normalize s s'
  | shortText {m s t} : Short.gdbText s m = .ok t → Does (.shortText m) s s
  | crashFrame {s f} : Short.crashFrame s = .ok f → Does .crashFrame s s

inductive DoesAll : List Call → GdbTrace → GdbTrace → Prop
  | nil {s} : DoesAll [] s s
  | cons {c l s s' s''} : Does c s s' → DoesAll l s' s'' → DoesAll (c :: l) s s''

theorem call_spec {c : Call} {w : World} {s s' : GdbTrace} (h : Shows w s) (hr : Regular w) (hd : Does c s s') :
    ∃ w', call c w = .ok w' ∧ Regular w' ∧ Shows w' s' := by
  cases hd with
  | limit hd =>
    obtain ⟨w', h1, h2, h3⟩ := C125_limit_partial w s _ h hr hd
    exact ⟨w', by unfold call; dsimp only; rw [h1, Out.bind_ok]; rfl, h2, h3⟩
  | libnames hv =>
    obtain ⟨w', h1, h2, h3⟩ := C125_libnames_partial w s _ h hr hv
    exact ⟨w', by unfold call; dsimp only; rw [h1, Out.bind_ok]; rfl, h2, h3⟩
  | normalize hn =>
    obtain ⟨w', h1, h2, h3, -⟩ := C125_normalize w s _ h hr hn
    exact ⟨w', by unfold call; dsimp only; rw [h1, Out.bind_ok]; rfl, h2, h3⟩
  | @shortText m _ t ht =>
    obtain ⟨h1, h2⟩ := C125_short_text w s m t h hr ht
    cases t with
    | none =>
      obtain ⟨p1, p2⟩ := prepare_shows h hr
      exact ⟨w.prepare, by unfold call; dsimp only; rw [h1 rfl, Out.bind_ok]; rfl, p2, p1⟩
    | some v =>
      obtain ⟨w', h1, h2, h3⟩ := h2 v rfl
      exact ⟨w', by unfold call; dsimp only; rw [h1, Out.bind_ok]; rfl, h2, h3⟩
  | @crashFrame _ f hf =>
    obtain ⟨h1, h2⟩ := C125_crash_frame_partial w s f h hr hf
    cases f with
    | none =>
      obtain ⟨p1, p2⟩ := prepare_shows h hr
      exact ⟨w.prepare, by unfold call; dsimp only; rw [h1 rfl, Out.bind_ok]; rfl, p2, p1⟩
    | some v =>
      obtain ⟨w', x, h1, h2, h3, -⟩ := h2 v rfl
      exact ⟨w', by unfold call; dsimp only; rw [h1, Out.bind_ok]; rfl, h2, h3⟩

/-- C125: after any sequence of calls on a stack trace that was parsed, Python shows what the library makes of it, and no call reads
or frees memory that is not allocated. -/
theorem C125_history_partial (w : World) (s s' : GdbTrace) (libs : List Ref) (l : List Call) (hs : s.threads ≠ [])
    (hl : libs.length = s.libs.length) (hd : DoesAll l s s') :
    ∃ w', calls l (w.load s libs) = .ok w' ∧ Shows w' s' := by
  obtain ⟨hr, h, -⟩ := C125_new w s libs hs hl
  generalize w.load s libs = w1 at h hr
  clear hs hl
  induction hd generalizing w1 with
  | nil => exact ⟨w1, rfl, h⟩
  | cons hc _ ih =>
    obtain ⟨w2, h1, h2, h3⟩ := call_spec h hr hc
    obtain ⟨w', h4, h5⟩ := ih w2 h3 h2
    exact ⟨w', by unfold calls; rw [h1, Out.bind_ok, h4], h5⟩

/-! ## C125: what does not hold -/

/-- C125 is false for frames that the caller keeps: after limiting the depth, the C frame of every frame object beyond the depth is
freed, although the object still refers to it. -/
theorem C125_not_alive (w : World) (s : GdbTrace) (depth : Int) (h : Shows w s) (hr : Regular w) (hd : 0 < depth) (t : ThreadObj)
    (ht : t ∈ w.threads) (x : Ref) (hx : x ∈ t.items.drop depth.toNat) :
    ∃ w', limitFrameDepth depth w = .ok (.ok (), w') ∧ w'.cOf x = w.cOf x ∧ w'.read (w'.cOf x) = .ub := by
  obtain ⟨p1, p2, p3, p4⟩ := prepare_spec h hr
  have hc := cut_spec w.prepare depth.toNat w.prepare.chain s.threads p1.threads p3
  have hready : Ready { w.prepare with
      frame := fun p => if p ∈ below depth.toNat w.prepare.chain then none else w.prepare.frame p
      chain := w.prepare.chain.map fun t => { t with chain := t.chain.take depth.toNat } }
      (s.threads.map fun t => { t with frames := t.frames.take depth.toNat }) :=
    ⟨cut_threads (w := w.prepare) p1.threads p3 (fun p hp => if_neg hp) rfl, by simpa using p1.some, p1.objects, p1.known, p1.libs⟩
  obtain ⟨w', r1, r2, r3, r4, r5, -⟩ := rebuild_spec hready
  have hu := hr.used t ht x (List.mem_of_mem_drop hx)
  have hco : w'.cOf x = w.cOf x := r5 x hu.1
  refine ⟨w', ?_, hco, ?_⟩
  · unfold limitFrameDepth
    dsimp only
    rw [if_neg (by omega), hc, Out.bind_ok]
    dsimp only
    rw [r1, Out.bind_ok]
  · unfold World.read
    rw [hco, r4 _ hu.2]
    dsimp only
    rw [if_pos]
    refine List.mem_flatMap.2 ⟨t.prepare w.cOf, ?_, ?_⟩
    · have hne : w.threads.map (ThreadObj.prepare w.cOf) ≠ [] := by simpa using hr.some
      have hc : w.prepare.chain = w.threads.map (ThreadObj.prepare w.cOf) := by
        show (if _ then _ else _) = _
        rw [if_neg hne]
      rw [hc]
      exact List.mem_map_of_mem ht
    · have hi : t.items ≠ [] := by intro he; rw [he] at hx; simp at hx
      show w.cOf x ∈ (if t.items = [] then _ else _ : List Nat).drop _
      rw [if_neg hi, ← List.map_drop]
      exact List.mem_map_of_mem hx

/-- C125 is false for the crash frame: the caller and the stack trace share one reference; once the caller drops the frame, the
attribute `crashframe` refers to an object that does not exist any more. -/
theorem C125_not_counted (w : World) (s : GdbTrace) (f : GdbFrame) (h : Shows w s) (hr : Regular w)
    (hf : Short.crashFrame s = .ok (some f)) :
    ∃ w1 x w2, findCrashFrame w = .ok (.ok x, w1) ∧ w1.decref x = .ok w2 ∧ getCrashframe w2 = .ub := by
  obtain ⟨w1, x, h1, h2, h3, h4, h5, h6⟩ := (C125_crash_frame_partial w s _ h hr hf).2 f rfl
  refine ⟨w1, x, { w1 with refs := update w1.refs x 0, frame := update w1.frame (w1.cOf x) none }, h1, ?_, ?_⟩
  · unfold World.decref
    rw [if_neg (by rw [h6]; decide), if_pos h6]
    unfold World.free
    dsimp only
    rw [h4]
  · unfold getCrashframe
    dsimp only
    rw [h5]
    dsimp only
    rw [if_pos (by simp [update])]

/-- C125 is false for copies: once the crash frame was looked for, a copy of the stack trace takes the frame for a thread. -/
theorem C125_not_copied (w : World) (s : GdbTrace) (f : GdbFrame) (h : Shows w s) (hr : Regular w)
    (hf : Short.crashFrame s = .ok (some f)) : ∃ w1 x, findCrashFrame w = .ok (.ok x, w1) ∧ dup w1 = .ub := by
  obtain ⟨w1, x, h1, h2, h3, h4, h5, h6⟩ := (C125_crash_frame_partial w s _ h hr hf).2 f rfl
  refine ⟨w1, x, h1, ?_⟩
  obtain ⟨p1, p2, p3, p4⟩ := prepare_spec h3 h2
  unfold dup
  dsimp only
  rw [p2, Out.bind_ok]
  have : (World.newThreads (w1.prepare.allocThreads s.threads).2 (w1.prepare.allocThreads s.threads).1).2.crashframe = some x := by
    rw [(newThreads_spec _ _).1.crashframe, (allocThreads_spec _ _).1.crashframe]
    exact h5
  rw [this]

theorem items_ext {w w' : World} (ex : Ext w w') {is : List Ref} {fs : List GdbFrame}
    (hu : ∀ x ∈ is, x < w.objs ∧ w.cOf x < w.ptrs)
    (h : List.Forall₂ (fun x f => 0 < w.refs x ∧ w.frame (w.cOf x) = some f) is fs) :
    List.Forall₂ (fun x f => 0 < w'.refs x ∧ w'.frame (w'.cOf x) = some f) is fs := by
  induction h with
  | nil => exact .nil
  | @cons x f _ _ hx _ ih =>
    obtain ⟨u1, u2⟩ := hu x List.mem_cons_self
    refine .cons ?_ (ih fun y hy => hu y (List.mem_cons_of_mem _ hy))
    rw [ex.refs x u1, ex.cOf x u1, ex.frame _ u2]
    exact hx

/-- C125: a copy, if the crash frame was not looked for, has new objects that show the same threads. -/
theorem C125_copy_partial (w : World) (s : GdbTrace) (h : Shows w s) (hr : Regular w) (hc : w.crashframe = none) :
    ∃ ts w', dup w = .ok (ts, w') ∧ Shows { w' with threads := ts, chain := ts } s ∧ Shows w' s := by
  obtain ⟨p1, p2, p3, p4⟩ := prepare_spec h hr
  obtain ⟨q1, q2⟩ := prepare_shows h hr
  obtain ⟨a1, a2, a3, a4⟩ := allocThreads_spec w.prepare s.threads
  have hs : s.threads ≠ [] := by
    intro he
    have := h.threads
    rw [he] at this
    cases ht : w.threads with
    | nil => exact hr.some ht
    | cons => rw [ht] at this; cases this
  have hne : (w.prepare.allocThreads s.threads).1 ≠ [] := by
    intro he
    rw [he] at a2
    unfold Threads at a2
    cases ht : s.threads with
    | nil => exact hs ht
    | cons => rw [ht] at a2; cases a2
  obtain ⟨n1, n2, -, -⟩ := newThreads_spec (w.prepare.allocThreads s.threads).2 (w.prepare.allocThreads s.threads).1
  have ex := a1.trans n1
  obtain ⟨s1, s2⟩ := shows_new a2 a3 hne (by rw [a1.libs, a1.clibs]; exact p1.libs) s.crash s.crashTid
  refine ⟨(World.newThreads (w.prepare.allocThreads s.threads).2 (w.prepare.allocThreads s.threads).1).1,
    (World.newThreads (w.prepare.allocThreads s.threads).2 (w.prepare.allocThreads s.threads).1).2, ?_, ?_, ?_⟩
  · unfold dup
    dsimp only
    rw [p2, Out.bind_ok]
    have : (World.newThreads (w.prepare.allocThreads s.threads).2 (w.prepare.allocThreads s.threads).1).2.crashframe = none := by
      rw [ex.crashframe]
      exact hc
    rw [this]
  · refine ⟨s1.threads, ?_, ?_, ?_⟩
    · show (World.newThreads _ _).2.libs.map _ = _
      rw [ex.libs]; exact h.libs
    · show (World.newThreads _ _).2.crash = _
      rw [ex.crash]; exact h.crash
    · show (World.newThreads _ _).2.crashTid = _
      rw [ex.crashTid]; exact h.crashTid
  · refine ⟨?_, by rw [ex.libs]; exact h.libs, by rw [ex.crash]; exact h.crash, by rw [ex.crashTid]; exact h.crashTid⟩
    rw [ex.threads]
    have hu := q2.used
    have hq := q1.threads
    generalize (World.newThreads (w.prepare.allocThreads s.threads).2 (w.prepare.allocThreads s.threads).1).2 = w1 at ex
    generalize w.prepare.threads = ts at hu hq
    generalize s.threads = vs at hq
    induction hq with
    | nil => exact .nil
    | @cons t v _ _ ht _ ih =>
      refine .cons ⟨ht.1, ht.2.1, ?_⟩ (ih fun t' h' => hu t' (List.mem_cons_of_mem _ h'))
      exact items_ext ex (hu t List.mem_cons_self) ht.2.2

/-- C125 is false for threads that only the list refers to, such as threads made in Python: limiting the depth frees frames twice. -/
def handMade : World where
  frame p := if p < 2 then some {} else none
  cOf x := x
  refs x := if x < 3 then 1 else 0
  ptrs := 2
  objs := 3
  threads := [{ obj := 2, items := [0, 1] }]

example : Shows handMade { threads := [{ number := 0, tid := 0, frames := [{}, {}] }] } := by
  refine ⟨.cons ⟨rfl, rfl, .cons ⟨by decide, rfl⟩ (.cons ⟨by decide, rfl⟩ .nil)⟩ .nil, rfl, rfl, rfl⟩

theorem C125_not_hand_made : limitFrameDepth 1 handMade = .ub := rfl

/-- C125 is false for a stack trace without threads: the null pointer is read. -/
theorem C125_not_empty (w : World) (depth : Int) (ht : w.threads = []) (hc : w.chain = []) (hd : 0 < depth) :
    limitFrameDepth depth w = .ub ∧ setLibnames w = .ub := by
  have h : w.prepare.chain = [] := by simp [World.prepare, ht, hc]
  constructor
  · unfold limitFrameDepth
    dsimp only
    rw [if_neg (by omega), h]
    unfold World.cutThreads
    rw [Out.bind_ok]
    unfold World.rebuild
    rw [if_pos rfl]
    rfl
  · unfold setLibnames
    dsimp only
    rw [h]
    unfold World.nameThreads
    rw [Out.bind_ok]
    unfold World.rebuild
    rw [if_pos h]
    rfl

/-- C125 is false for a depth of zero and for negative depths: the process is aborted. -/
theorem C125_not_zero (w : World) (depth : Int) (hd : depth ≤ 0) : limitFrameDepth depth w = .abort := by
  unfold limitFrameDepth
  dsimp only
  rw [if_pos hd]

/-! ## C125: addresses -/

/-- C125: the first library of the list whose range has the address; `None` without such a library. -/
theorem C125_address_partial (w : World) (a : Nat) (h : a < 2 ^ 63) :
    (findAddress a w = .ok none ∧ ∀ l ∈ w.libs, ¬(l.2.lo ≤ a ∧ a ≤ l.2.hi)) ∨
    ∃ l1 x l l2, w.libs = l1 ++ (x, l) :: l2 ∧ (l.lo ≤ a ∧ a ≤ l.hi) ∧ (∀ m ∈ l1, ¬(m.2.lo ≤ a ∧ a ≤ m.2.hi)) ∧
      findAddress a w = .ok (some x) := by
  have he : findAddress a w = .ok (findLoop a w.libs) := by
    unfold findAddress
    have h63 : (2 : Int) ^ 63 = 9223372036854775808 := by decide
    have h64 : (2 : Int) ^ 64 = 18446744073709551616 := by decide
    have n63 : (2 : Nat) ^ 63 = 9223372036854775808 := by decide
    have n64 : (2 : Nat) ^ 64 = 18446744073709551616 := by decide
    rw [n63] at h
    rw [h63, h64, n64]
    have hm : ((a : Int) % 18446744073709551616).toNat = a := by omega
    rw [if_neg (by omega), hm]
    dsimp only
    rw [if_neg (by omega)]
  rw [he]
  generalize w.libs = ls
  induction ls with
  | nil => exact .inl ⟨rfl, by simp⟩
  | cons m ls ih =>
    obtain ⟨x, l⟩ := m
    by_cases hl : l.lo ≤ a ∧ l.hi ≥ a
    · exact .inr ⟨[], x, l, ls, rfl, hl, by simp, by simp only [findLoop]; rw [if_pos hl]⟩
    · have hf : findLoop a ((x, l) :: ls) = findLoop a ls := by simp only [findLoop]; rw [if_neg hl]
      rw [hf]
      rcases ih with ⟨h1, h2⟩ | ⟨l1, y, k, l2, h1, h2, h3, h4⟩
      · exact .inl ⟨h1, by rintro m (_ | ⟨_, hm⟩) <;> [exact hl; exact h2 m hm]⟩
      · exact .inr ⟨(x, l) :: l1, y, k, l2, by rw [h1]; rfl, h2, by rintro m (_ | ⟨_, hm⟩) <;> [exact hl; exact h3 m hm], h4⟩

/-- C125 is false for addresses in the upper half: they are refused. -/
theorem C125_not_high (w : World) (a : Nat) (h : 2 ^ 63 ≤ a) : findAddress a w = .error .overflow := by
  unfold findAddress
  have h63 : (2 : Int) ^ 63 = 9223372036854775808 := by decide
  have n63 : (2 : Nat) ^ 63 = 9223372036854775808 := by decide
  rw [n63] at h
  rw [if_pos (by rw [h63]; omega)]

/-- C125: the text of the object has the number of threads. -/
theorem C125_str (w : World) (s : GdbTrace) (h : Shows w s) :
    str w = c!"Stacktrace with " ++ natDec s.threads.length ++ c!" threads" := by
  unfold str
  rw [h.threads.length_eq]

/-! ## C125: concrete cases -/

/-- A stack trace with two threads. -/
def sample : GdbTrace where
  threads := [{ number := 1, tid := 10, frames := [{ number := 0, functionName := some c!"raise", address := 0x1010 }, { number := 1, functionName := some c!"abort" },
      { number := 2, functionName := some c!"main" }] },
    { number := 2, tid := 11, frames := [{ number := 0, functionName := some c!"poll" }] }]
  crashTid := 10
  libs := [{ lo := 0x1000, hi := 0x1fff, soname := c!"/usr/lib/libc.so.6" }]

def blank : World where
  frame _ := none
  cOf _ := 0
  refs _ := 0
  ptrs := 1
  objs := 1

example : Regular (blank.load sample [7]) ∧ Shows (blank.load sample [7]) sample ∧ (blank.load sample [7]).crashframe = none :=
  C125_new _ _ _ (by decide) rfl

example : ∃ w', limitFrameDepth 2 (blank.load sample [7]) = .ok (.ok (), w') ∧ Regular w' ∧
    Shows w' { sample with threads := sample.threads.map fun t => { t with frames := t.frames.take 2 } } :=
  have h := C125_new blank sample [7] (by decide) rfl
  C125_limit_partial _ _ 2 h.2.1 h.1 (by decide)

example : Short.crashFrame sample = .ok (some { number := 0, functionName := some c!"raise", address := 0x1010 }) := by decide +kernel

/-- Looking for the crash frame and dropping it before reading the attribute. -/
example : ∃ w1 x w2, findCrashFrame (blank.load sample [7]) = .ok (.ok x, w1) ∧ w1.decref x = .ok w2 ∧ getCrashframe w2 = .ub :=
  have h := C125_new blank sample [7] (by decide) rfl
  C125_not_counted _ _ { number := 0, functionName := some c!"raise", address := 0x1010 } h.2.1 h.1 (by decide +kernel)

example : findAddress 0x1010 (blank.load sample [7]) = .ok (some 7) := rfl
example : findAddress 0x2000 (blank.load sample [7]) = .ok none := rfl
example : str (blank.load sample [7]) = c!"Stacktrace with 2 threads" := by decide +kernel

end Satyr.Py.Gdb
