import Verif.Heap.Lists
/-!
# Properties of copying, freeing and appending
-/
namespace Satyr.Heap
open Satyr.CStr

/-! ## Every list can be in memory -/

theorem place_texts : ∀ (ss : List (Option Str)) (m : Mem) (B : Nat), 0 < B → (∀ x, B ≤ x → m x = none) →
    ∃ m' ps f B', Adds m m' f ∧ Texts m' ss ps f ∧ B ≤ B' ∧ ∀ x, B' ≤ x → m' x = none
  | [], m, B, _, hB => ⟨m, [], [], B, .refl m, .nil, Nat.le_refl B, hB⟩
  | none :: ss, m, B, h0, hB => by
    obtain ⟨m', ps, f, B', h1, h2, h3, h4⟩ := place_texts ss m B h0 hB
    exact ⟨m', 0 :: ps, f, B', h1, .null h2, h3, h4⟩
  | some s :: ss, m, B, h0, hB => by
    have ha : Adds m (m.set B (some (.text s))) [B] :=
      ⟨List.nodup_singleton B, by simpa using hB B (Nat.le_refl B), by simp [set_eq], fun x hx => set_ne _ _ (by simpa using hx)⟩
    obtain ⟨m', ps, f, B', h1, h2, h3, h4⟩ := place_texts ss (m.set B (some (.text s))) (B + 1) (by omega)
      fun x hx => by rw [set_ne _ _ (show x ≠ B by omega)]; exact hB x (by omega)
    refine ⟨m', B :: ps, B :: f, B', ha.trans h1, .some (Nat.ne_of_gt h0) ?_ h2, by omega, h4⟩
    rw [h1.ext B (by rw [set_eq]; simp), set_eq]

theorem place (v : Chain) : ∀ (m : Mem) (B : Nat), 0 < B → (∀ x, B ≤ x → m x = none) →
    ∃ m' p f B', Adds m m' f ∧ Holds m' v true p f ∧ B ≤ B' ∧ ∀ x, B' ≤ x → m' x = none := by
  induction v with
  | nil => exact fun m B _ hB => ⟨m, 0, [], B, .refl m, ⟨rfl, rfl⟩, Nat.le_refl B, hB⟩
  | cons k d ts w a b c e next iha ihb ihc ihe ihn =>
    intro m B h0 hB
    let r : Record := { kind := k, data := d, crashThread := w }
    have h1 : Adds m (m.set B (some (.record r))) [B] :=
      ⟨List.nodup_singleton B, by simpa using hB B (Nat.le_refl B), by simp [set_eq], fun x hx => set_ne _ _ (by simpa using hx)⟩
    obtain ⟨m2, pn, gn, B2, h2, hn, l2, b2⟩ := ihn (m.set B (some (.record r))) (B + 1) (by omega)
      fun x hx => by rw [set_ne _ _ (show x ≠ B by omega)]; exact hB x (by omega)
    obtain ⟨m3, ps, gs, B3, h3, hs, l3, b3⟩ := place_texts ts m2 B2 (by omega) b2
    obtain ⟨m4, pa, ga, B4, h4, ha, l4, b4⟩ := iha m3 B3 (by omega) b3
    obtain ⟨m5, pb, gb, B5, h5, hb, l5, b5⟩ := ihb m4 B4 (by omega) b4
    obtain ⟨m6, pc, gc, B6, h6, hc, l6, b6⟩ := ihc m5 B5 (by omega) b5
    obtain ⟨m7, pe, ge, B7, h7, he, l7, b7⟩ := ihe m6 B6 (by omega) b6
    obtain ⟨m8, g, e8, h8, h9⟩ := copy_finish (q := B) (r := r) (Nat.ne_of_gt h0) (set_eq _ _ _) h1 h2 hn h3 hs h4 ha h5 hb h6 hc h7 he
    refine ⟨m8, B, g, B7, h8, h9, by omega, fun x hx => ?_⟩
    have hq : m7 B = some (.record r) := by
      rw [(h2.ext.trans (h3.ext.trans (h4.ext.trans (h5.ext.trans (h6.ext.trans h7.ext))))) B (by rw [set_eq]; simp), set_eq]
    rw [writeRecord, hq] at e8
    injection e8 with e8
    rw [← e8, set_ne _ _ (show x ≠ B by omega), b7 x hx]

/-- Any list of structures can be in memory. -/
theorem exists_holds (v : Chain) : ∃ m p f, Holds m v true p f ∧ f.Nodup := by
  obtain ⟨m, p, f, _, h1, h2, _⟩ := place v (fun _ => none) 1 (by omega) fun _ _ => rfl
  exact ⟨m, p, f, h2, h1.nodup⟩

/-- An allocator: the first free address below 100. -/
def firstFree : Allocator where
  pick m := (List.range 100).find? fun p => (m p).isNone && p != 0
  free m p h := by
    have := List.find?_some h
    simpa using this

/-- A gdb stack trace with two threads, the first of two frames, a shared library and a crash frame. -/
def exampleTrace : Chain :=
  .cons .gdbTrace [] [] 0
    (.cons .gdbThread [2] [] 0
      (.cons .gdbFrame [0] [some c!"raise", none, some c!"raise.c", none] 0 .nil .nil .nil .nil
        (.cons .gdbFrame [1] [some c!"main", none, none, some c!"/usr/bin/a"] 0 .nil .nil .nil .nil .nil))
      .nil .nil .nil
      (.cons .gdbThread [1] [] 0 .nil .nil .nil .nil .nil))
    (.cons .gdbLib [1, 2, 0] [some c!"libc.so"] 0 .nil .nil .nil .nil .nil)
    (.cons .gdbFrame [0] [some c!"raise", none, none, none] 0 .nil .nil .nil .nil .nil) .nil .nil

theorem exampleTrace_typed : exampleTrace.Typed [.gdbTrace] := by
  simp [exampleTrace, Chain.Typed, MemberOk, slots, texts, Chain.Single, Slot.isList]

/-! ## C98: copying -/

/-- **C98.** Copying a structure (or the list from it on) never fails except for lack of memory; the result is a structure (or
list) with the same contents, down to all texts and members, in memory that was not in use before; all other memory, in particular
the original, is as before. -/
theorem C98_copy_partial (A : Allocator) (n : Nat) (siblings : Bool) (p : Ptr) (f : List Ptr) (m : Mem) (v : Chain) (ks : List Kind)
    (hne : v ≠ .nil) (hsize : v.size ≤ n) (ht : v.Typed ks) (hk : ∀ k ∈ ks, copyable k = true) (hv : Holds m v siblings p f) :
    copy A n p siblings m = .abort ∨
    ∃ q m' g, copy A n p siblings m = .ok (q, m') ∧ Holds m' v true q g ∧ Adds m m' g ∧
      Holds m' v siblings p f ∧ ∀ x ∈ g, x ∉ f := by
  rcases copy_spec A v n siblings p f m ks hne hsize ht hk hv with e | ⟨q, m', g, e, h1, h2⟩
  · exact .inl e
  · exact .inr ⟨q, m', g, e, h2, h1, hv.ext h1.ext, fun x hx hf => hv.used x hf (h1.fresh x hx)⟩

/-- The hypotheses hold: the trace above is in memory, and it is copied by this allocator. -/
example : exampleTrace ≠ .nil ∧ exampleTrace.Typed [.gdbTrace] ∧ (∀ k ∈ [Kind.gdbTrace], copyable k = true) ∧
    exampleTrace.size = 7 ∧ ∃ m p f, Holds m exampleTrace true p f ∧ f.Nodup :=
  ⟨by simp [exampleTrace], exampleTrace_typed, by decide, by decide, exists_holds _⟩

/-- Memory with a core stack trace at 1 that has one thread, at 2, which is the crash thread. -/
def coreMem : Mem := fun x =>
  if x = 1 then some (.record { kind := .coreTrace, texts := [0], a := 2, crashThread := 2 })
  else if x = 2 then some (.record { kind := .coreThread }) else none

def coreChain : Chain := .cons .coreTrace [] [none] 2 (.cons .coreThread [] [] 0 .nil .nil .nil .nil .nil) .nil .nil .nil .nil

theorem coreMem_holds : Holds coreMem coreChain true 1 [1, 2] :=
  ⟨_, [], [2], [], [], [], [], by decide, rfl, rfl, rfl, rfl, .null .nil,
    ⟨_, [], [], [], [], [], [], by decide, rfl, rfl, rfl, rfl, .nil, ⟨rfl, rfl⟩, ⟨rfl, rfl⟩, ⟨rfl, rfl⟩, ⟨rfl, rfl⟩, ⟨rfl, rfl⟩, rfl⟩,
    ⟨rfl, rfl⟩, ⟨rfl, rfl⟩, ⟨rfl, rfl⟩, ⟨rfl, rfl⟩, rfl⟩

theorem coreChain_typed : coreChain.Typed [.coreTrace] := by
  simp [coreChain, Chain.Typed, MemberOk, slots, texts, Slot.isList]

/-- What is missing in C98: the crash thread of a copied core stack trace is the thread of the original, not that of the copy;
when the original is freed, the copy points to memory that is free. -/
theorem C98_not_crash_thread : ∃ (A : Allocator) (m m' m'' : Mem) (q : Ptr) (r : Record),
    Holds m coreChain true 1 [1, 2] ∧ copy A 10 1 false m = .ok (q, m') ∧ free 10 1 false m' = .ok m'' ∧
    m'' q = some (.record r) ∧ r.crashThread ≠ 0 ∧ r.crashThread ≠ r.a ∧ m'' r.crashThread = none := by
  obtain ⟨q, m', g, e, h1, h2⟩ := (copy_spec firstFree coreChain 10 false 1 [1, 2] coreMem [.coreTrace] (by simp [coreChain])
    (by decide) coreChain_typed (by decide) (coreMem_holds.alone rfl)).resolve_left (by intro h; exact absurd (congrArg (fun o => match o with | Out.abort => true | _ => false) h) (by decide +kernel))
  have hv := coreMem_holds.ext h1.ext
  have hf := free_spec coreChain 10 false 1 [1, 2] m' [.coreTrace] (by decide) coreChain_typed
    (Chain.constantReporter coreChain_typed (by decide)) (hv.alone rfl) (by decide)
  obtain ⟨r, fs, fa, fb, fc, fe, fn, h0, h3, h4, h5, h6, h7, ha, hrest⟩ := h2
  have fresh : ∀ x ∈ g, x ∉ [1, 2] := fun x hx hf => coreMem_holds.used x hf (h1.fresh x hx)
  obtain ⟨hb, hc, he, hn, hg⟩ := hrest
  have hqg : q ∈ g := by rw [hg]; simp
  refine ⟨firstFree, coreMem, m', _, q, r, coreMem_holds, e, hf, ?_, ?_, ?_, ?_⟩
  · rw [erase, if_neg (fresh q hqg), h3]
  · rw [h6]; decide
  · rw [h6]
    intro h2a
    obtain ⟨r', fs', _, _, _, _, _, _, _, _, _, _, _, _, _, _, _, _, rfl⟩ := ha
    exact fresh 2 (by rw [hg, ← h2a]; simp) (by simp)
  · rw [h6]; rfl

/-! ## C99: freeing -/

/-- **C99.** Freeing a structure (or the list from it on) whose blocks are all different releases exactly the memory it occupies
with all texts and members; nothing is freed twice or read after it was freed; all other memory is as before. -/
theorem C99_free_partial (n : Nat) (siblings : Bool) (p : Ptr) (f : List Ptr) (m : Mem) (v : Chain) (ks : List Kind)
    (hsize : v.size < n) (ht : v.Typed ks) (hr : v.ConstantReporter) (hv : Holds m v siblings p f) (hf : f.Nodup) :
    ∃ m', free n p siblings m = .ok m' ∧ Released m m' f :=
  ⟨_, free_spec v n siblings p f m ks hsize ht hr hv hf, erase_released m f⟩

/-- A report with two packages, a stack trace and an operating system. -/
def exampleReport : Chain :=
  .cons .report [2] [some c!"bash", none, none] 0
    (.cons .system [1000] [some c!"fedora", some c!"18", some c!"x86_64", none, none, none] 0 .nil .nil .nil .nil .nil)
    (.cons .package [0] [some c!"bash", some c!"4", some c!"1", some c!"x86_64"] 0
      (.cons .consistency [1] [some c!"/bin/sh"] 0 .nil .nil .nil .nil .nil) .nil .nil .nil
      (.cons .package [0] [some c!"glibc", some c!"2", some c!"1", some c!"x86_64"] 0 .nil .nil .nil .nil .nil))
    exampleTrace
    (.cons .entry [] [some c!"key", some c!"value"] 0 .nil .nil .nil .nil .nil) .nil

theorem exampleReport_typed : exampleReport.Typed [.report] := by
  simp [exampleReport, exampleTrace, Chain.Typed, MemberOk, slots, texts, Chain.Single, traces, Slot.isList]

example : exampleReport.Typed [.report] ∧ exampleReport.ConstantReporter ∧ exampleReport.size < 20 ∧
    ∃ m p f, Holds m exampleReport true p f ∧ f.Nodup :=
  ⟨exampleReport_typed, ⟨fun _ => ⟨rfl, rfl⟩, trivial⟩, by decide, exists_holds _⟩

/-- Memory with a report at 1 whose reporter's name, at 2, was read from JSON. -/
def reportMem : Mem := fun x =>
  if x = 1 then some (.record { kind := .report, texts := [0, 2, 0] })
  else if x = 2 then some (.text c!"reporter") else none

/-- What is missing in C99: the name of the reporter that was read from JSON is not freed with the report. -/
theorem C99_not_reporter : ∃ (m m' : Mem) (v : Chain), v.Typed [.report] ∧ Holds m v true 1 [1, 2] ∧ free 10 1 false m = .ok m' ∧
    m' 1 = none ∧ m' 2 ≠ none := by
  refine ⟨reportMem, reportMem.set 1 none, .cons .report [] [none, some c!"reporter", none] 0 .nil .nil .nil .nil .nil, ?_, ?_, rfl, rfl, ?_⟩
  · simp [Chain.Typed, MemberOk, slots, texts, Slot.isList, Chain.Single]
  · exact ⟨_, [2], [], [], [], [], [], by decide, rfl, rfl, rfl, rfl, .null (.some (by decide) rfl (.null .nil)),
      ⟨rfl, rfl⟩, ⟨rfl, rfl⟩, ⟨rfl, rfl⟩, ⟨rfl, rfl⟩, ⟨rfl, rfl⟩, rfl⟩
  · simp [Mem.set, reportMem]

/-! ## C100: copies are independent -/

/-- **C100.** After copying, freeing the copy leaves memory exactly as it was before copying; freeing the original leaves the copy
with all its contents, and releases exactly the memory of the original. -/
theorem C100_copy_free (A : Allocator) (n : Nat) (p : Ptr) (f : List Ptr) (m : Mem) (v : Chain) (ks : List Kind)
    (hne : v ≠ .nil) (hsize : v.size < n) (ht : v.Typed ks) (hk : ∀ k ∈ ks, copyable k = true) (hv : Holds m v true p f) (hf : f.Nodup)
    (q : Ptr) (m' : Mem) (hq : copy A n p true m = .ok (q, m')) :
    (∃ m'', free n q true m' = .ok m'' ∧ ∀ x, m'' x = m x) ∧
    ∃ m'' g, free n p true m' = .ok m'' ∧ Holds m'' v true q g ∧ (∀ x ∈ f, m'' x = none) ∧ ∀ x, x ∉ f → x ∉ g → m'' x = m x := by
  rcases copy_spec A v n true p f m ks hne (by omega) ht hk hv with e | ⟨q', m1, g, e, h1, h2⟩
  · rw [e] at hq; cases hq
  · rw [e] at hq
    cases hq
    have hr : v.ConstantReporter := Chain.constantReporter ht fun h => by have := hk _ h; simp [copyable] at this
    have hfg : ∀ x ∈ g, x ∉ f := fun x hx hf => hv.used x hf (h1.fresh x hx)
    refine ⟨⟨_, free_spec v n true q g m' ks hsize ht hr h2 h1.nodup, fun x => ?_⟩,
      _, g, free_spec v n true p f m' ks hsize ht hr (hv.ext h1.ext) hf, h2.congr (erase_apart m' hfg), fun x hx => if_pos hx, fun x hx hg => ?_⟩
    · by_cases hx : x ∈ g
      · rw [erase, if_pos hx, h1.fresh x hx]
      · rw [erase, if_neg hx, h1.same x hx]
    · rw [erase, if_neg hx, h1.same x hg]

example : ∃ (m' : Mem) (q : Ptr), copy firstFree 10 1 true coreMem = .ok (q, m') ∧ m' q ≠ none ∧ coreMem q = none := by
  rcases C98_copy_partial firstFree 10 true 1 [1, 2] coreMem coreChain [.coreTrace] (by simp [coreChain]) (by decide) coreChain_typed
    (by decide) coreMem_holds with e | ⟨q, m', g, e, h, ha, _⟩
  · exact absurd (congrArg (fun o => match o with | Out.abort => true | _ => false) e) (by decide +kernel)
  · obtain ⟨r, fs, fa, fb, fc, fe, fn, h0, h1, _, _, _, _, _, _, _, _, _, rfl⟩ := h
    exact ⟨m', q, e, by rw [h1]; simp, ha.fresh q (by simp)⟩

/-! ## C101: appending -/

/-- **C101.** Appending a list to another one that has no memory in common with it gives the list of all structures of the first
followed by all structures of the second; the memory of the result is that of both, and only memory of the first list is
changed. If the first list is not empty, it stays at its address. -/
theorem C101_append_partial (n : Nat) (p q : Ptr) (f g : List Ptr) (m : Mem) (v w : Chain) (hsize : v.size ≤ n) (hv : Holds m v true p f)
    (hw : Holds m w true q g) (hd : (f ++ g).Nodup) :
    ∃ r m', append n p q m = .ok (r, m') ∧ Holds m' (v.append w) true r (f ++ g) ∧ (∀ x, x ∉ f → m' x = m x) ∧
      (v ≠ .nil → r = p) := by
  unfold append
  by_cases hnil : v = .nil
  · subst hnil
    obtain ⟨rfl, rfl⟩ := hv
    exact ⟨q, m, rfl, hw, fun _ _ => rfl, fun h => absurd rfl h⟩
  · rw [if_neg (hv.ne hnil)]
    obtain ⟨m', e1, e2, e3⟩ := appendLoop_spec hnil hsize hv hw hd
    rw [e1]
    exact ⟨p, m', rfl, e2, e3, fun _ => rfl⟩

/-- Memory with two frames, at 1 and 2. -/
def framesMem : Mem := fun x =>
  if x = 1 then some (.record { kind := .jsFrame, data := [1] })
  else if x = 2 then some (.record { kind := .jsFrame, data := [2] }) else none

theorem framesMem_holds (x : Ptr) (hx : x = 1 ∨ x = 2) : Holds framesMem (.cons .jsFrame [x] [] 0 .nil .nil .nil .nil .nil) true x [x] := by
  rcases hx with rfl | rfl
  · exact ⟨_, [], [], [], [], [], [], by decide, rfl, rfl, rfl, rfl, .nil, ⟨rfl, rfl⟩, ⟨rfl, rfl⟩, ⟨rfl, rfl⟩, ⟨rfl, rfl⟩, ⟨rfl, rfl⟩, rfl⟩
  · exact ⟨_, [], [], [], [], [], [], by decide, rfl, rfl, rfl, rfl, .nil, ⟨rfl, rfl⟩, ⟨rfl, rfl⟩, ⟨rfl, rfl⟩, ⟨rfl, rfl⟩, ⟨rfl, rfl⟩, rfl⟩

example : ∃ r m', append 5 1 2 framesMem = .ok (r, m') ∧
    Holds m' (.cons .jsFrame [1] [] 0 .nil .nil .nil .nil (.cons .jsFrame [2] [] 0 .nil .nil .nil .nil .nil)) true r [1, 2] := by
  obtain ⟨r, m', h1, h2, _⟩ := C101_append_partial 5 1 2 [1] [2] framesMem _ _ (by decide) (framesMem_holds 1 (.inl rfl))
    (framesMem_holds 2 (.inr rfl)) (by decide)
  exact ⟨r, m', h1, h2⟩

/-- What is missing in C101: when a list is appended to itself, the result is no list; it is a cycle. -/
theorem C101_not_self : ∃ (m m' : Mem) (v : Chain), Holds m v true 1 [1] ∧ append 5 1 1 m = .ok (1, m') ∧
    ∀ w f, ¬ Holds m' w true 1 f := by
  refine ⟨framesMem, framesMem.set 1 (some (.record { kind := .jsFrame, data := [1], next := 1 })), _,
    framesMem_holds 1 (.inl rfl), rfl, fun w => ?_⟩
  induction w with
  | nil => rintro f ⟨h, _⟩; cases h
  | cons k d ts w a b c e next _ _ _ _ ihn =>
    rintro f ⟨r, fs, fa, fb, fc, fe, fn, h0, h1, _, _, _, _, _, _, _, _, hn, _⟩
    rw [set_eq] at h1
    cases h1
    rw [if_pos rfl] at hn
    exact ihn fn hn

/-! ## C102: keeping one thread -/

/-- **C102.** Removing all threads of a gdb stack trace but the one number `i`, given by its address: the stack trace then has
this thread only, unchanged, with everything else of the stack trace; the memory of all other threads is released, and no memory
outside of the stack trace is changed. -/
theorem C102_one_thread (n : Nat) (p t : Ptr) (f : List Ptr) (m : Mem) (d : List Int) (ts : List (Option Str)) (cr : Ptr)
    (threads b c e : Chain) (i : Nat) (r : Record)
    (hv : Holds m (.cons .gdbTrace d ts cr threads b c e .nil) true p f) (hf : f.Nodup)
    (ht : (Chain.cons .gdbTrace d ts cr threads b c e .nil).Typed [.gdbTrace]) (hsize : threads.size + 1 < n)
    (hr : m p = some (.record r)) (hi : i < threads.length) (hti : t = nth m r.a i) :
    ∃ m' f', exceptOne n p t m = .ok m' ∧ Holds m' (.cons .gdbTrace d ts cr (threads.only i) b c e .nil) true p f' ∧
      (∀ x ∈ f', x ∈ f) ∧ (∀ x ∈ f, x ∉ f' → m' x = none) ∧ ∀ x, x ∉ f → m' x = m x := by
  obtain ⟨r', fs, fa, fb, fc, fe, fn, h0, h1, h2, h3, h4, h5, ha, hb, hc, he, hn, rfl⟩ := hv
  rw [if_pos rfl] at hn
  obtain ⟨hn0, rfl⟩ := hn
  rw [hr] at h1
  cases h1
  obtain ⟨-, -, -, hta, -⟩ := ht
  obtain ⟨p0, hf⟩ := List.nodup_cons.1 hf
  obtain ⟨ds, hf, as⟩ := List.nodup_append.1 hf
  obtain ⟨da, hf, aa⟩ := List.nodup_append.1 hf
  have hta' : threads.Typed [.gdbThread] := hta.1
  obtain ⟨g, h, e1, e2, e3, e4, e5⟩ := exceptLoop_one hsize hta' (by decide) ha da hi
  obtain ⟨-, c2⟩ := nth_congr (m' := m) ha (fun _ _ => rfl) hi
  rw [← hti] at e1 e2 c2
  have hth : t ∈ h := by
    generalize hw : threads.only i = w at e2
    cases w with
    | nil =>
      exfalso
      have : ∀ (v : Chain) (i : Nat), i < v.length → v.only i ≠ .nil := by
        intro v
        induction v with
        | nil => intro i hi; simp [Chain.length] at hi
        | cons k d ts w a b c e next _ _ _ _ ih =>
          intro i hi
          cases i with
          | zero => simp [Chain.only]
          | succ i => exact ih i (by simpa [Chain.length] using hi)
      exact this threads i hi hw
    | cons k d ts w a b c e next => obtain ⟨_, _, _, _, _, _, _, _, _, _, _, _, _, _, _, _, _, _, rfl⟩ := e2; simp
  have htg : t ∉ g := fun hx => e4 t hx hth
  have hga : ∀ x ∈ g, x ∈ fa := fun x hx => (e3 x).2 (.inl hx)
  have hha : ∀ x ∈ h, x ∈ fa := fun x hx => (e3 x).2 (.inr hx)
  obtain ⟨rt, hrt⟩ : ∃ rt, m t = some (.record rt) := by
    cases hw : threads.only i with
    | nil => rw [hw] at e2; rw [e2.2] at hth; simp at hth
    | cons k d ts w a b c e next =>
      rw [hw] at e2
      obtain ⟨rt, _, _, _, _, _, _, _, h, _⟩ := e2
      exact ⟨rt, h⟩
  have hpt : p ≠ t := fun e => p0 (by rw [e]; simp [c2])
  have hpg : p ∉ g := fun h => p0 (by simp [hga p h])
  have hph : p ∉ h := fun h => p0 (by simp [hha p h])
  have hp1 : (erase m g).set t (some (.record { rt with next := 0 })) p = some (.record r) := by
    rw [set_ne _ _ hpt, erase, if_neg hpg, hr]
  let m2 : Mem := ((erase m g).set t (some (.record { rt with next := 0 }))).set p (some (.record { r with a := t }))
  have hex : exceptOne n p t m = .ok m2 := by
    have hw1 : ∀ r', writeRecord (erase m g) t r' = .ok ((erase m g).set t (some (.record r'))) := fun r' => by
      rw [writeRecord, erase, if_neg htg, hrt]
    rw [exceptOne, readRecord, hr]
    simp only [bind_ok]
    rw [e1]
    simp only [bind_ok]
    rw [readRecord, erase, if_neg htg, hrt]
    simp only [bind_ok]
    have : (fun x => if x ∈ g then none else m x) = erase m g := rfl
    rw [hw1]
    simp only [bind_ok]
    rw [writeRecord, hp1]
  have keep : ∀ x, x ≠ p → x ≠ t → x ∉ g → m2 x = m x := fun x h1 h2 h3 => by
    show Mem.set _ _ _ x = _
    rw [set_ne _ _ h1, set_ne _ _ h2, erase, if_neg h3]
  have keepl : ∀ {l : List Ptr}, (∀ x ∈ l, x ∉ fa) → (∀ x ∈ l, x ≠ p) → ∀ x ∈ l, m2 x = m x := fun h1 h2 x hx =>
    keep x (h2 x hx) (fun e => h1 x hx (e ▸ c2)) fun h => h1 x hx (hga x h)
  refine ⟨m2, p :: (fs ++ (h ++ (fb ++ (fc ++ (fe ++ []))))), hex,
    ⟨{ r with a := t }, fs, h, fb, fc, fe, [], h0, set_eq _ _ _, h2, h3, h4, ?_, ?_, ?_, ?_, ?_, ?_, rfl⟩, ?_, ?_, ?_⟩
  · exact h5.congr (keepl (fun x hx hy => as x hx x (by simp [hy]) rfl) fun x hx e => p0 (by rw [← e]; simp [hx]))
  · refine Holds.last e2 hrt e5 ?_ ?_
    · show Mem.set _ _ _ t = _
      rw [set_ne _ _ hpt.symm, set_eq]
    · exact fun x hx hxt => keep x (fun e => hph (e ▸ hx)) hxt fun hg => e4 x hg hx
  · exact hb.congr (keepl (fun x hx hy => aa x hy x (by simp [hx]) rfl) fun x hx e => p0 (by rw [← e]; simp [hx]))
  · exact hc.congr (keepl (fun x hx hy => aa x hy x (by simp [hx]) rfl) fun x hx e => p0 (by rw [← e]; simp [hx]))
  · exact he.congr (keepl (fun x hx hy => aa x hy x (by simp [hx]) rfl) fun x hx e => p0 (by rw [← e]; simp [hx]))
  · rw [if_pos rfl]
    exact ⟨hn0, rfl⟩
  · intro x hx
    simp only [List.mem_cons, List.mem_append] at hx ⊢
    rcases hx with hx | hx | hx | hx
    · exact .inl hx
    · exact .inr (.inl hx)
    · exact .inr (.inr (.inl (hha x hx)))
    · exact .inr (.inr (.inr hx))
  · intro x hx hx'
    simp only [List.mem_cons, List.mem_append, not_or] at hx hx'
    obtain ⟨n1, n2, n3, n4, n5, n6, n7⟩ := hx'
    have hxa : x ∈ fa := by
      rcases hx with hx | hx | hx | hx | hx | hx | hx
      · exact absurd hx n1
      · exact absurd hx n2
      · exact hx
      · exact absurd hx n4
      · exact absurd hx n5
      · exact absurd hx n6
      · exact absurd hx n7
    show Mem.set _ _ _ x = _
    rw [set_ne _ _ n1, set_ne _ _ (fun e : x = t => n3 (e ▸ hth)), erase, if_pos (((e3 x).1 hxa).resolve_right n3)]
  · intro x hx
    simp only [List.mem_cons, List.mem_append, not_or] at hx
    exact keep x hx.1 (fun e => hx.2.2.1 (e ▸ c2)) fun h => hx.2.2.1 (hga x h)

/-- The trace above has two threads; the second one is kept. -/
example : ∃ m p f r, Holds m exampleTrace true p f ∧ f.Nodup ∧ m p = some (.record r) := by
  obtain ⟨m, p, f, h, hf⟩ := exists_holds exampleTrace
  obtain ⟨r, _, _, _, _, _, _, _, h1, _⟩ := id h
  exact ⟨m, p, f, r, h, hf, h1⟩

end Satyr.Heap
