import Verif.Heap.GdbTextThreads
import Verif.CStr.Exact
/-!
# Reading gdb stack traces from text: memory of stack traces
-/
namespace Satyr.Heap
open Satyr.CStr
open Satyr.Frames
open Satyr.Normalize (GdbFrame)
open Satyr.Json (Value)

/-! ## Specification -/

/-- The contents of a shared library. -/
def gdbLibPart (l : Sharedlib) : Part := { data := [(l.lo : Int), (l.hi : Int), l.symbols], texts := [l.soname] }

/-- The shared libraries in memory. -/
def libsChain (l : List Sharedlib) : Chain := chainsOf (l.map fun x => (gdbLibPart x).chain .gdbLib 0)

/-- The threads in memory. -/
def threadsChain (l : List GdbThread) : Chain := chainsOf (l.map fun t => (gdbThreadPart t).chain .gdbThread 0)

/-- The crash frame in memory. -/
def crashChain (f : Option GdbFrame) : Chain := f.elim .nil fun f => (gdbFramePart f).chain .gdbFrame 0

/-- The contents of a stack trace. -/
def gdbTracePart (t : GdbTrace) : Part :=
  { data := [(t.crashTid : Int)], a := threadsChain t.threads, b := libsChain t.libs, c := crashChain t.crash }

/-! ## Shared libraries -/

theorem libs_size (l : List Sharedlib) : (libsChain l).size = l.length := size_chains _ (fun _ => rfl) l
theorem libs_length (l : List Sharedlib) : (libsChain l).length = l.length := chains_length _ (fun _ => rfl) l
theorem libs_nil (l : List Sharedlib) : libsChain l = .nil ↔ l = [] := chains_nil _ (fun _ => rfl) l

theorem libs_typed : ∀ l : List Sharedlib, (libsChain l).Typed [.gdbLib]
  | [] => trivial
  | x :: l => ⟨by simp, rfl, libs_typed l, rfl, rfl, rfl, rfl⟩

/-- A new shared library. -/
theorem newLib_spec (A : Allocator) (m : Mem) (name : Str) (lo hi : Nat) (symbols : Int) {b m₁} (hb : Holding m b name m₁) :
    alloc A (newRecord .gdbLib) m₁ = .abort ∨
    ∃ q m₂ m₃ m₄ g, alloc A (newRecord .gdbLib) m₁ = .ok (q, m₂) ∧ setTexts q (fun l => l.set 0 b) m₂ = .ok m₃ ∧
      setData q [(lo : Int), (hi : Int), symbols] m₃ = .ok m₄ ∧ Holds m₄ (libsChain [⟨lo, hi, symbols, some name⟩]) true q g ∧ Adds m m₄ g := by
  rcases alloc_spec A (newRecord .gdbLib) m₁ with e | ⟨q, e, hq, hA⟩
  · exact .inl e
  obtain ⟨h0, h1, rfl⟩ := hb
  have hq1 : (m.set b (some (.text name))) q = none := hA.fresh q (by simp)
  have hne : q ≠ b := fun e => by rw [e, set_eq] at hq1; cases hq1
  rw [set_ne _ _ hne] at hq1
  have hA' : Adds m (m.set q (some (newRecord .gdbLib))) [q] :=
    ⟨by simp, by simpa using hq1, by simp [set_eq, newRecord], fun x hx => set_ne _ _ (by simpa using hx)⟩
  have hB : Built .gdbLib .null m (m.set q (some (newRecord .gdbLib))) q { texts := [none] } := built_new .null hq hA'
  have hH : HoldingOpt (m.set q (some (newRecord .gdbLib))) b (some name) ((m.set b (some (.text name))).set q (some (newRecord .gdbLib))) :=
    ⟨h0, by rw [set_ne _ _ hne.symm, h1], set_swap _ _ _ hne.symm⟩
  obtain ⟨m₃, e3, hB⟩ := setText_spec hB hH (i := 0) rfl
  obtain ⟨m₄, e4, hB⟩ := setData_spec hB [(lo : Int), (hi : Int), symbols]
  obtain ⟨g, k1, k2⟩ := hB.whole rfl
  exact .inr ⟨q, _, m₃, m₄, g, e, e3, e4, k1, k2⟩

/-- One more library at the end. -/
theorem linkLib_spec {m₀ m m' : Mem} {acc first f cur q g x} (h : Holds m (libsChain acc) true first f) (hA : Adds m₀ m f)
    (hc : acc ≠ [] → nth m first (acc.length - 1) = cur) (hn : acc = [] → cur = 0) (hq : Holds m' (libsChain [x]) true q g) (hA' : Adds m m' g) :
    ∃ m₂ f', (if cur ≠ 0 then link cur q m' else .ok m') = .ok m₂ ∧ Holds m₂ (libsChain (acc ++ [x])) true (if cur ≠ 0 then first else q) f' ∧
      Adds m₀ m₂ f' ∧ nth m₂ (if cur ≠ 0 then first else q) acc.length = q := by
  by_cases c : acc = []
  · subst c
    rw [hn rfl, if_neg (by simp), if_neg (by simp)]
    obtain ⟨_, rfl⟩ := h
    exact ⟨m', g, rfl, hq, hA.trans hA', rfl⟩
  · have hne : libsChain acc ≠ .nil := fun e => c ((libs_nil acc).1 e)
    obtain ⟨r', _, _, h4⟩ := last_next hne h
    rw [libs_length, hc c] at h4
    rw [if_pos h4, if_pos h4]
    have hh := h.ext hA'.ext
    have hAA := hA.trans hA'
    have hsz : (libsChain acc).size ≤ acc.length := by rw [libs_size]
    obtain ⟨m₂, e1, e2, e3⟩ := appendLoop_spec hne hsz hh hq hAA.nodup
    have hnt := (appendLoop_nth hne hsz hh hq hAA.nodup e1).2
    rw [libs_length] at hnt
    have happ : (libsChain acc).append (libsChain [x]) = libsChain (acc ++ [x]) := by
      unfold libsChain
      rw [List.map_append, chainsOf_append]
    rw [happ] at e2
    refine ⟨m₂, f ++ g, ?_, e2, adds_same hAA (fun y hy => e3 y fun hf => hy (by simp [hf])) e2.used, hnt⟩
    rw [← e1, appendLoop_last hne hsz hh, libs_length]
    have hpos : acc.length - 1 < (libsChain acc).length := by
      rw [libs_length]
      have := List.length_pos_iff.2 c
      omega
    have := (nth_congr h (m' := m') (i := acc.length - 1) (fun y hy => hA'.ext y (h.used y hy)) hpos).1
    rw [this, hc c]

theorem gdbLibsLoop_spec (A : Allocator) {m₀ : Mem} : ∀ (fuel : Nat) (tmp : Str) (acc : List Sharedlib) (first cur : Ptr) (m : Mem) (f : List Ptr) {v},
    Holds m (libsChain acc) true first f → Adds m₀ m f → (acc ≠ [] → nth m first (acc.length - 1) = cur) → (acc = [] → cur = 0) →
    Gdb.parseLibsLoop fuel tmp = .ok v → gdbLibsLoop A fuel first cur tmp m = .abort ∨
    ∃ q m' g, gdbLibsLoop A fuel first cur tmp m = .ok (q, m') ∧ Holds m' (libsChain (acc ++ v)) true q g ∧ Adds m₀ m' g
  | 0, tmp, acc, first, cur, m, f, v, h, hA, _, _, hv => by
    cases hv
    exact .inr ⟨first, m, f, rfl, by simpa using h, hA⟩
  | fuel + 1, tmp, acc, first, cur, m, f, v, h, hA, hc, hn, hv => by
    unfold Gdb.parseLibsLoop at hv
    unfold gdbLibsLoop
    cases c1 : Gdb.libRange tmp with
    | none =>
      rw [c1] at hv
      cases hv
      exact .inr ⟨first, m, f, rfl, by simpa using h, hA⟩
    | some w =>
      obtain ⟨lo, hi, t⟩ := w
      rw [c1] at hv
      dsimp only at hv ⊢
      cases c2 : Gdb.libSymbols t with
      | none =>
        rw [c2] at hv
        cases hv
        exact .inr ⟨first, m, f, rfl, by simpa using h, hA⟩
      | some w =>
        obtain ⟨symbols, t⟩ := w
        rw [c2] at hv
        dsimp only at hv ⊢
        obtain ⟨rest, h1, h2⟩ := bind_ok_iff.1 hv
        obtain ⟨l, h3, h4⟩ := bind_ok_iff.1 h2
        cases h4
        rcases newText A [] m with e | ⟨b, m₁, e, hb⟩
        · rw [e]; exact .inl rfl
        rw [e, bind_ok]
        dsimp only
        rcases bufAdd_spec A hb ((skipWs t).takeWhile fun c => c ≠ '\n') with e | ⟨b, m₁, e, hb⟩
        · rw [e]; exact .inl rfl
        rw [e, bind_ok]
        dsimp only
        rcases newLib_spec A m _ lo hi symbols hb with e | ⟨q, m₂, m₃, m₄, g, e1, e2, e3, k1, k2⟩
        · rw [e]; exact .inl rfl
        rw [e1, bind_ok]
        dsimp only
        rw [e2, bind_ok, e3, bind_ok]
        obtain ⟨m₅, f', e4, k3, k4, k5⟩ := linkLib_spec h hA hc hn k1 k2
        rw [e4, bind_ok, h1, bind_ok]
        have := gdbLibsLoop_spec A fuel rest _ _ q m₅ f' k3 k4 (fun _ => by simpa using k5) (by simp) h3
        simpa using this

theorem gdbLibs_spec (A : Allocator) (m : Mem) {s v} (hv : Gdb.parseLibs s = .ok v) : gdbLibs A s m = .abort ∨
    ∃ q m' g, gdbLibs A s m = .ok (q, m') ∧ Holds m' (libsChain v) true q g ∧ Adds m m' g := by
  unfold Gdb.parseLibs at hv
  unfold gdbLibs
  cases c : Gdb.findSection true s with
  | none =>
    rw [c] at hv
    cases hv
    exact .inr ⟨0, m, [], rfl, ⟨rfl, rfl⟩, .refl m⟩
  | some t =>
    rw [c] at hv
    exact gdbLibsLoop_spec A _ t [] 0 0 m [] ⟨rfl, rfl⟩ (.refl m) (by simp) (fun _ => rfl) hv

theorem libsLoop_length : ∀ (fuel : Nat) (s : Str) {v}, Gdb.parseLibsLoop fuel s = .ok v → v.length ≤ fuel
  | 0, _, _, hv => by cases hv; simp
  | fuel + 1, tmp, v, hv => by
    unfold Gdb.parseLibsLoop at hv
    split at hv
    · cases hv; simp
    · split at hv
      · cases hv; simp
      · obtain ⟨rest, h1, h2⟩ := bind_ok_iff.1 hv
        obtain ⟨l, h3, h4⟩ := bind_ok_iff.1 h2
        cases h4
        have := libsLoop_length fuel rest h3
        simp only [List.length_cons]; omega

theorem headerRest_length {s t : Str} (h : Gdb.headerRest s = some t) : t.length ≤ s.length := by
  have hws : ∀ s : Str, (skipWs s).length ≤ s.length := fun s => (List.dropWhile_sublist _).length_le
  unfold Gdb.headerRest at h
  split at h
  · dsimp only at h
    split at h
    · split at h
      · split at h
        · cases h
          have h1 := hws (s.drop 4)
          have h2 := hws ((skipWs (s.drop 4)).drop 2)
          have h3 := hws ((skipWs ((skipWs (s.drop 4)).drop 2)).drop 9)
          simp only [List.length_drop] at *
          omega
        · cases h
      · cases h
    · cases h
  · cases h

theorem findSection_length : ∀ (s : Str) (b : Bool) {t : Str}, Gdb.findSection b s = some t → t.length ≤ s.length
  | [], _, _, h => by cases h
  | c :: s, b, t, h => by
    unfold Gdb.findSection at h
    split at h
    · rename_i r hr
      cases h
      split at hr
      · exact headerRest_length hr
      · cases hr
    · have := findSection_length s _ h
      simp only [List.length_cons]; omega

theorem parseLibs_length {s v} (hv : Gdb.parseLibs s = .ok v) : v.length ≤ s.length + 1 := by
  unfold Gdb.parseLibs at hv
  split at hv
  · cases hv; simp
  · rename_i t ht
    have := libsLoop_length _ _ hv
    have := findSection_length _ _ ht
    omega

/-! ## Stack traces -/

/-- The libraries become a member of a new stack trace. -/
theorem hangLibs_spec {j m₀ m m' p v q g} (h : Built .gdbTrace j m₀ m p {}) (hq : Holds m' (libsChain v) true q g) (hA : Adds m m' g)
    (hv : v.length ≤ weight j + 1) (d : List Int) : ∃ r m₂, m' p = some (.record r) ∧ writeRecord m' p { r with data := d, b := q } = .ok m₂ ∧
      Built .gdbTrace j m₀ m₂ p { data := d, b := libsChain v } := by
  obtain ⟨hok, r, fs, fa, fb, fc, fe, h0, h1, h2, h3, h4, ⟨ha, rfl⟩, ⟨hb, rfl⟩, ⟨hc, rfl⟩, ⟨he, rfl⟩, hn, hw, hadds⟩ := h.more hA
  refine ⟨r, m'.set p (some (.record { r with data := d, b := q })), h1, by rw [writeRecord, h1], ?_⟩
  refine Built.rebuild (x := { data := d, b := libsChain v }) (fs := fs) (fa := []) (fb := g) (fc := []) (fe := []) ⟨rfl, hok.a, ?_, hok.c, hok.e, hok.sizeA,
    by show (libsChain v).size ≤ _; rw [libs_size]; exact hv, hok.sizeC, hok.sizeE, hok.crash⟩ h0 h2 rfl h4 ⟨ha, rfl⟩ hq ⟨hc, rfl⟩ ⟨he, rfl⟩ hn hw
    (by simpa using hadds)
  exact ⟨libs_typed v, fun e => by cases e⟩

/-- The crash frame becomes a member of a stack trace without threads. -/
theorem hangCrash_spec {j m₀ m m' p d v q g} {f : Option GdbFrame} (h : Built .gdbTrace j m₀ m p { data := d, b := libsChain v })
    (hq : Holds m' (crashChain f) true q g) (hA : Adds m m' g) : ∃ r m₂, m' p = some (.record r) ∧ writeRecord m' p { r with c := q } = .ok m₂ ∧
      Built .gdbTrace j m₀ m₂ p { data := d, b := libsChain v, c := crashChain f } := by
  obtain ⟨hok, r, fs, fa, fb, fc, fe, h0, h1, h2, h3, h4, ⟨ha, rfl⟩, hb, ⟨hc, rfl⟩, ⟨he, rfl⟩, hn, hw, hadds⟩ := h.more hA
  refine ⟨r, m'.set p (some (.record { r with c := q })), h1, by rw [writeRecord, h1], ?_⟩
  refine Built.rebuild (x := { data := d, b := libsChain v, c := crashChain f }) (fs := fs) (fa := []) (fb := fb) (fc := g) (fe := []) ⟨rfl, hok.a, hok.b, ?_,
    hok.e, hok.sizeA, hok.sizeB, ?_, hok.sizeE, hok.crash⟩ h0 h2 h3 h4 ⟨ha, rfl⟩ hb hq ⟨he, rfl⟩ hn hw (by simpa using hadds)
  · cases f with
    | none => exact ⟨trivial, fun _ => trivial⟩
    | some f => exact ⟨frame_typed f, fun _ => rfl⟩
  · show (crashChain f).size ≤ _
    cases f with
    | none => exact Nat.zero_le _
    | some f => simp [crashChain, Part.chain, gdbFramePart, Chain.size]

theorem gdbTraceHeader_spec (A : Allocator) (m : Mem) {s v} (hv : Gdb.parseTraceHeader s = .ok v) : gdbTraceHeader A s m = .abort ∨
    match (generalizing := false) v with
    | none => gdbTraceHeader A s m = .ok (none, m)
    | some (f, t) => ∃ q m' g, gdbTraceHeader A s m = .ok (some (q, t), m') ∧ Holds m' (crashChain f) true q g ∧ Adds m m' g := by
  have hframe : ∀ (t : Str) {r}, Gdb.parseFrame t = .ok r → gdbCrash A t m = .abort ∨
      match (generalizing := false) r.map fun q => (some q.1, q.2) with
      | none => gdbCrash A t m = .ok (none, m)
      | some (f, u) => ∃ q m' g, gdbCrash A t m = .ok (some (q, u), m') ∧ Holds m' (crashChain f) true q g ∧ Adds m m' g := by
    intro t r h1
    rw [gdbCrash]
    rcases gdbFrame_spec A m h1 with e | hf
    · rw [e]; exact .inl rfl
    cases r with
    | none =>
      obtain ⟨u, e⟩ := hf
      rw [e]
      exact .inr rfl
    | some r =>
      obtain ⟨q, m', e, hb⟩ := hf
      rw [e, bind_ok]
      dsimp only
      rw [if_neg hb.ne]
      obtain ⟨g, k1, k2⟩ := hb.whole rfl
      exact .inr ⟨q, m', g, rfl, k1, k2⟩
  unfold Gdb.parseTraceHeader at hv
  unfold gdbTraceHeader
  cases c1 : strstrI c!"\nThread " s with
  | some t =>
    cases c2 : strstrI c!"\n#" s with
    | some f =>
      rw [c1, c2] at hv
      dsimp only at hv ⊢
      split at hv
      · rename_i c
        rw [if_pos c]
        obtain ⟨r, h1, h2⟩ := bind_ok_iff.1 hv
        cases h2
        exact hframe _ h1
      · rename_i c
        rw [if_neg c]
        cases hv
        exact .inr ⟨0, m, [], rfl, ⟨rfl, rfl⟩, .refl m⟩
    | none =>
      rw [c1, c2] at hv
      cases hv
      exact .inr ⟨0, m, [], rfl, ⟨rfl, rfl⟩, .refl m⟩
  | none =>
    cases c2 : strstrI c!"\n#" s with
    | some f =>
      rw [c1, c2] at hv
      obtain ⟨r, h1, h2⟩ := bind_ok_iff.1 hv
      cases h2
      exact hframe _ h1
    | none =>
      rw [c1, c2] at hv
      cases hv
      exact .inr rfl

theorem threads_length (l : List GdbThread) : (threadsChain l).length = l.length := chains_length _ (fun _ => rfl) l
theorem threads_nil (l : List GdbThread) : threadsChain l = .nil ↔ l = [] := chains_nil _ (fun _ => rfl) l
theorem threads_snoc (l : List GdbThread) (t : GdbThread) : (threadsChain l).append ((gdbThreadPart t).chain .gdbThread 0) = threadsChain (l ++ [t]) :=
  chains_snoc (fun t => (gdbThreadPart t).chain .gdbThread 0) l t
theorem threads_cons (t : GdbThread) (l : List GdbThread) : (threadsChain (t :: l)).size = ((gdbThreadPart t).chain .gdbThread 0).size + (threadsChain l).size := by
  unfold threadsChain
  rw [List.map_cons, chainsOf, size_append]

theorem frames_typed : ∀ l : List GdbFrame, (chainsOf (l.map fun f => (gdbFramePart f).chain .gdbFrame 0)).Typed [.gdbFrame]
  | [] => trivial
  | x :: l => ⟨by simp, rfl, frames_typed l, rfl, rfl, rfl, rfl⟩

theorem thread_typed (t : GdbThread) : ((gdbThreadPart t).chain .gdbThread 0).Typed [.gdbThread] :=
  ⟨by simp, rfl, trivial, ⟨frames_typed t.frames, fun e => by cases e⟩, rfl, rfl, rfl⟩

theorem gdbThreads_spec (A : Allocator) {j m₀ p crash libs tid} : ∀ (fuel : Nat) (s : Str) (acc : List GdbThread) (last : Ptr) (m : Mem) {v},
    Built .gdbTrace j m₀ m p (gdbTracePart ⟨acc, crash, libs, tid⟩) → (acc ≠ [] → Ends m p (acc.length - 1) last) → (acc = [] → last = 0) →
    Gdb.threadsLoop fuel s = .ok v → (threadsChain acc).size + (threadsChain v.1).size < weight j →
    gdbThreads A p fuel last s m = .abort ∨
    ∃ q m', gdbThreads A p fuel last s m = .ok (q, v.2, m') ∧ Built .gdbTrace j m₀ m' p (gdbTracePart ⟨acc ++ v.1, crash, libs, tid⟩)
  | 0, _, _, _, _, _, _, _, _, hv, _ => by cases hv
  | fuel + 1, s, acc, last, m, v, h, hl, hn, hv, hsz => by
    rw [Gdb.threadsLoop] at hv
    rw [gdbThreads]
    obtain ⟨f, h1, h2⟩ := bind_ok_iff.1 hv
    rcases gdbThread_spec A m h1 with e | hf
    · rw [e]; exact .inl rfl
    cases f with
    | none =>
      cases h2
      obtain ⟨t, e⟩ := hf
      rw [e, bind_ok]
      dsimp only
      rw [if_pos rfl]
      exact .inr ⟨last, m, rfl, by simpa using h⟩
    | some f =>
      obtain ⟨f, t⟩ := f
      obtain ⟨q, m', j', e, hb⟩ := hf
      dsimp only at h2
      obtain ⟨r, h3, h4⟩ := bind_ok_iff.1 h2
      cases h4
      rw [e, bind_ok]
      dsimp only at hsz ⊢
      rw [threads_cons] at hsz
      rw [if_neg hb.ne]
      obtain ⟨m₂, e2, hb2, hends⟩ := gdbAppend_spec (s := .threads) (l := [.gdbThread]) (last := last) h rfl hb rfl (by
        show _ + (threadsChain acc).size < _
        omega) rfl rfl (thread_typed f) (fun c => by
          show Ends m p ((threadsChain acc).length - 1) last
          rw [threads_length]
          exact hl fun e => c ((threads_nil acc).2 e)) (fun c => hn ((threads_nil acc).1 c))
      rw [e2, bind_ok]
      have hb2 : Built .gdbTrace j m₀ m₂ p (gdbTracePart ⟨acc ++ [f], crash, libs, tid⟩) := by
        unfold gdbTracePart
        dsimp only
        rw [← threads_snoc]
        exact hb2
      have hends : Ends m₂ p acc.length q := by
        have : (gdbTracePart ⟨acc, crash, libs, tid⟩).a.length = acc.length := threads_length acc
        rwa [this] at hends
      have := gdbThreads_spec A fuel t (acc ++ [f]) q m₂ hb2 (fun _ => by simpa using hends) (by simp) h3 (by
        rw [← threads_snoc, size_append]; omega)
      simpa using this

theorem gdbTrace_spec (A : Allocator) (m : Mem) {s v} (hv : Gdb.parseTrace s = .ok v) : gdbTrace A s m = .abort ∨
    match (generalizing := false) v with
    | none => gdbTrace A s m = .ok (0, s, m)
    | some (t, rest) => ∃ p m' j, gdbTrace A s m = .ok (p, rest, m') ∧ Built .gdbTrace j m m' p (gdbTracePart t) := by
  obtain ⟨libs, h1, h2⟩ := bind_ok_iff.1 hv
  obtain ⟨h, h3, h4⟩ := bind_ok_iff.1 h2
  have hlen := parseLibs_length h1
  rw [gdbTrace]
  rcases alloc_spec A (newRecord .gdbTrace) m with e | ⟨p, e, hp, hA⟩
  · rw [e]; exact .inl rfl
  have hb : ∀ j, Built .gdbTrace j m (m.set p (some (newRecord .gdbTrace))) p {} := fun j => built_new j hp hA
  rw [e, bind_ok]
  dsimp only
  generalize m.set p (some (newRecord .gdbTrace)) = m₁ at hb
  rcases gdbLibs_spec A m₁ h1 with e | ⟨q, m₂, g, e, k1, k2⟩
  · rw [e]; exact .inl rfl
  rw [e, bind_ok]
  dsimp only
  have hsize : (libsChain libs).size = libs.length := libs_size libs
  cases h with
  | none =>
    cases h4
    obtain ⟨r, m₃, k3, k4, k5⟩ := hangLibs_spec (hb (sized libs.length)) k1 k2 (by rw [weight_sized]; omega) [((2 ^ 32 - 1 : Nat) : Int)]
    rw [readRecord, k3]
    dsimp only
    rw [bind_ok, k4, bind_ok]
    rcases gdbTraceHeader_spec A m₃ h3 with e | hh
    · rw [e]; exact .inl rfl
    dsimp only at hh
    rw [hh, bind_ok]
    dsimp only
    rw [k5.release (by simp) (by simp only [Part.chain, Chain.size, hsize]; omega) false]
    exact .inr rfl
  | some h =>
    obtain ⟨crash, t⟩ := h
    dsimp only at h4
    obtain ⟨r, h5, h6⟩ := bind_ok_iff.1 h4
    obtain ⟨rc, m₃, k3, k4, k5⟩ := hangLibs_spec (hb (sized (libs.length + (threadsChain r.1).size))) k1 k2 (by rw [weight_sized]; omega)
      [((2 ^ 32 - 1 : Nat) : Int)]
    rw [readRecord, k3]
    dsimp only
    rw [bind_ok, k4, bind_ok]
    rcases gdbTraceHeader_spec A m₃ h3 with e | ⟨q', m₄, g', e, k6, k7⟩
    · rw [e]; exact .inl rfl
    rw [e, bind_ok]
    dsimp only
    obtain ⟨rd, m₅, l3, l4, l5⟩ := hangCrash_spec k5 k6 k7
    rw [readRecord, l3]
    dsimp only
    rw [bind_ok, l4, bind_ok]
    have l5 : Built .gdbTrace (sized (libs.length + (threadsChain r.1).size)) m m₅ p (gdbTracePart ⟨[], crash, libs, 2 ^ 32 - 1⟩) := l5
    rcases gdbThreads_spec A _ t [] 0 m₅ l5 (by simp) (fun _ => rfl) h5 (by rw [weight_sized]; show 0 + _ < _; omega) with e | ⟨q'', m₆, e, n1⟩
    · rw [e]; exact .inl rfl
    rw [e, bind_ok]
    dsimp only
    rw [List.nil_append] at n1
    have n2 := n1
    obtain ⟨hok, re, fs, fa, fb, fc, fe, h0, n3, _, _, _, ha, _⟩ := n2
    rw [readRecord, n3]
    dsimp only
    rw [bind_ok]
    cases h6
    by_cases c : r.1 = []
    · rw [if_pos c]
      have : re.a = 0 := by
        rw [c] at ha
        exact ha.1
      rw [if_pos this, n1.release (by simp) (by
        rw [c]
        have hcr : (crashChain crash).size ≤ 1 := by cases crash <;> simp [crashChain, Part.chain, gdbFramePart, Chain.size]
        simp only [Part.chain, gdbTracePart, Chain.size, hsize, threadsChain, List.map_nil, chainsOf]; omega) false]
      exact .inr rfl
    · rw [if_neg c, if_neg (ha.ne fun e => c ((threads_nil _).1 e))]
      exact .inr ⟨p, m₆, _, rfl, n1⟩

end Satyr.Heap
