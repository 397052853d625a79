import Verif.Heap.GdbTextCalls
import Verif.CStr.Exact
/-!
# Reading gdb stack traces from text: memory of frames
-/
namespace Satyr.Heap
open Satyr.CStr
open Satyr.Frames
open Satyr.Normalize (GdbFrame)
open Satyr.Json (Value)

/-! ## Specification -/

/-- The contents of a frame. -/
def gdbFramePart (f : GdbFrame) : Part :=
  { data := [(f.number : Int), (f.sourceLine : Int), bit f.signalHandlerCalled, (f.address : Int)],
    texts := [f.functionName, f.functionType, f.sourceFile, f.libraryName] }

/-- What reading a frame does. -/
def MakesFrame (m : Mem) (v : Option (GdbFrame × Str)) (o : Out (Ptr × Str × Mem)) : Prop :=
  o = .abort ∨ match v with
  | none => ∃ t, o = .ok (0, t, m)
  | some (f, t) => ∃ p m', o = .ok (p, t, m') ∧ Built .gdbFrame .null m m' p (gdbFramePart f)

/-! ## Members -/

theorem Holding.adds {m m' : Mem} {p t} (h : Holding m p t m') : Adds m m' [p] := by
  obtain ⟨_, h1, rfl⟩ := h
  exact ⟨by simp, by simpa using h1, by simp [set_eq], fun x hx => set_ne _ _ (by simpa using hx)⟩

theorem Built.release {k j m₀ m p x} (h : Built k j m₀ m p x) (hk : k ≠ .report) {n : Nat} (hn : (x.chain k 0).size < n) (b : Bool) :
    Heap.free n p b m = .ok m₀ := by
  obtain ⟨r, f, _, _, h3, h4⟩ := h.holds
  rw [← h4.erase]
  refine free_spec (x.chain k r.crashThread) n b p f m [k] hn (h.1.typed r.crashThread) ⟨fun e => absurd e hk, trivial⟩ ?_ h4.nodup
  cases b with
  | true => exact h3
  | false => exact h3.alone rfl

theorem setData_spec {k j m₀ m p x} (h : Built k j m₀ m p x) (d : List Int) :
    ∃ m', setData p d m = .ok m' ∧ Built k j m₀ m' p { x with data := d } := by
  obtain ⟨hok, r, fs, fa, fb, fc, fe, h0, h1, h2, h3, h4, ha, hb, hc, he, hn, hw, hadds⟩ := h
  refine ⟨m.set p (some (.record { r with data := d })), by rw [setData, readRecord, h1]; dsimp only; rw [bind_ok, writeRecord, h1], ?_⟩
  exact Built.rebuild ⟨hok.length, hok.a, hok.b, hok.c, hok.e, hok.sizeA, hok.sizeB, hok.sizeC, hok.sizeE, hok.crash⟩ h0 h2 rfl h4 ha hb hc he hn hw hadds

theorem Texts.same {m : Mem} {ss ps f} (h : Texts m ss ps f) : ∀ {i : Nat}, ss[i]? = Option.some Option.none → ps.set i 0 = ps ∧ ss.set i Option.none = ss := by
  induction h with
  | nil => intro i hi; simp at hi
  | null h ih =>
    intro i hi
    cases i with
    | zero => exact ⟨rfl, rfl⟩
    | succ i =>
      obtain ⟨h1, h2⟩ := ih (by simpa using hi)
      exact ⟨by rw [List.set_cons_succ, h1], by rw [List.set_cons_succ, h2]⟩
  | some h0 h1 h ih =>
    intro i hi
    cases i with
    | zero => simp at hi
    | succ i =>
      obtain ⟨h1, h2⟩ := ih (by simpa using hi)
      exact ⟨by rw [List.set_cons_succ, h1], by rw [List.set_cons_succ, h2]⟩

/-- A text becomes a member of a structure. -/
theorem setText_spec {k j m₀ m p x} (h : Built k j m₀ m p x) {q t m'} (hq : HoldingOpt m q t m') {i : Nat} (hi : x.texts[i]? = some none) :
    ∃ m₂, setTexts p (fun l => l.set i q) m' = .ok m₂ ∧ Built k j m₀ m₂ p { x with texts := x.texts.set i t } := by
  cases t with
  | none =>
    obtain ⟨rfl, rfl⟩ := hq
    have h' := h
    obtain ⟨hok, r, fs, fa, fb, fc, fe, h0, h1, h2, h3, h4, ha, hb, hc, he, hn, hw, hadds⟩ := h
    obtain ⟨e1, e2⟩ := h4.same hi
    refine ⟨m', ?_, by rw [e2]; exact h'⟩
    rw [setTexts, readRecord, h1]
    dsimp only
    rw [bind_ok, e1, writeRecord, h1]
    dsimp only
    rw [set_same h1]
  | some t =>
    have hA := Holding.adds hq
    obtain ⟨hok, r, fs, fa, fb, fc, fe, h0, h1, h2, h3, h4, ha, hb, hc, he, hn, hw, hadds⟩ := h.more hA
    have hm : m' q = some (.text t) := by rw [hq.2.2, set_eq]
    obtain ⟨fs', t1, t2⟩ := h4.store hq.1 hm hi
    refine ⟨m'.set p (some (.record { r with texts := r.texts.set i q })), by rw [setTexts, readRecord, h1]; dsimp only; rw [bind_ok, writeRecord, h1], ?_⟩
    refine Built.rebuild (x := { x with texts := x.texts.set i (some t) }) ⟨by simp [hok.length], hok.a, hok.b, hok.c, hok.e, hok.sizeA, hok.sizeB,
      hok.sizeC, hok.sizeE, hok.crash⟩ h0 h2 h3 t1 ha hb hc he hn hw (hadds.perm ?_)
    have e : (p :: (fs ++ (fa ++ (fb ++ (fc ++ fe)))) ++ [q]).Perm (p :: ((q :: fs) ++ (fa ++ (fb ++ (fc ++ fe))))) := by
      rw [List.cons_append]
      refine List.Perm.cons p ?_
      rw [List.cons_append]
      exact List.perm_append_comm (l₂ := [q])
    exact e.trans ((t2.symm.append_right _).cons p)

/-- The name and the type become members of a new frame. -/
theorem gdbNames_spec {j m₀ m p} (h : Built .gdbFrame j m₀ m p { texts := [none, none, none, none] }) {n q₁ q₀ m'} (hq : Named m n q₁ q₀ m') :
    ∃ m₂, gdbNames p (q₁, q₀) m' = .ok m₂ ∧ Built .gdbFrame j m₀ m₂ p { texts := [some n.1, n.2, none, none] } := by
  obtain ⟨n, t⟩ := n
  have key : ∃ g, Adds m m' g ∧ Texts m' [some n, t, none, none] [q₁, q₀, 0, 0] g := by
    cases t with
    | none =>
      obtain ⟨rfl, hq⟩ := hq
      exact ⟨[q₁], hq.adds, .some hq.1 (by rw [hq.2.2, set_eq]) (.null (.null (.null .nil)))⟩
    | some y =>
      obtain ⟨m₁, hy, hn⟩ := hq
      refine ⟨[q₁, q₀], (hy.adds.trans hn.adds).perm (.swap _ _ _), .some hn.1 (by rw [hn.2.2, set_eq]) (.some hy.1 ?_ (.null (.null .nil)))⟩
      rw [hn.adds.ext q₀ (by rw [hy.2.2, set_eq]; simp), hy.2.2, set_eq]
  obtain ⟨g, hA, hT⟩ := key
  obtain ⟨hok, r, fs, fa, fb, fc, fe, h0, h1, h2, h3, h4, ⟨ha, rfl⟩, ⟨hb, rfl⟩, ⟨hc, rfl⟩, ⟨he, rfl⟩, hn, hw, hadds⟩ := h.more hA
  have hr : r.texts = [0, 0, 0, 0] ∧ fs = [] := by
    clear hadds
    generalize r.texts = ps at h4
    cases h4; rename_i h4
    cases h4; rename_i h4
    cases h4; rename_i h4
    cases h4; rename_i h4
    cases h4
    exact ⟨rfl, rfl⟩
  obtain ⟨hr, rfl⟩ := hr
  refine ⟨m'.set p (some (.record { r with texts := [q₁, q₀, 0, 0] })), by
    rw [gdbNames, setTexts, readRecord, h1]; dsimp only; rw [bind_ok, writeRecord, h1, hr]; rfl, ?_⟩
  refine Built.rebuild (x := { texts := [some n, t, none, none] }) (fs := g) (fa := []) (fb := []) (fc := []) (fe := []) ⟨rfl, hok.a, hok.b, hok.c,
    hok.e, hok.sizeA, hok.sizeB, hok.sizeC, hok.sizeE, hok.crash⟩ h0 h2 h3 hT ⟨ha, rfl⟩ ⟨hb, rfl⟩ ⟨hc, rfl⟩ ⟨he, rfl⟩ hn hw (by simpa using hadds)

/-! ## Frames -/

theorem release_frame {m₀ m p x} (h : Built .gdbFrame .null m₀ m p x) : Heap.free 16 p false m = .ok m₀ := by
  refine h.release (by simp) ?_ false
  have := h.1.size 0
  simpa [room, weight] using this

theorem gdbWithout_spec (A : Allocator) {m₀ m p} (h : Built .gdbFrame .null m₀ m p { texts := [none, none, none, none] }) {number address s v}
    (hv : Gdb.headerWithoutAddress number address s = .ok v) : MakesFrame m₀ v (gdbWithout A p number address s m) := by
  obtain ⟨c, h1, h2⟩ := bind_ok_iff.1 hv
  rw [gdbWithout]
  rcases gdbCall_spec A m h1 with e | hc
  · rw [e]; exact .inl rfl
  cases c with
  | some c =>
    obtain ⟨q₁, q₀, m', e, hq⟩ := hc
    dsimp only at h2
    obtain ⟨l, h3, h4⟩ := bind_ok_iff.1 h2
    rw [e, bind_ok]
    dsimp only
    obtain ⟨m₂, e, hb⟩ := gdbNames_spec h hq
    rw [e, bind_ok]
    rcases gdbLocation_spec A m₂ h3 with e | hl
    · rw [e]; exact .inl rfl
    cases l with
    | none =>
      cases h4
      dsimp only at hl
      rw [hl, bind_ok]
      dsimp only
      rw [release_frame hb]
      exact .inr ⟨[], rfl⟩
    | some l =>
      cases h4
      obtain ⟨q, m₃, e, hq⟩ := hl
      rw [e, bind_ok]
      dsimp only
      obtain ⟨m₄, e, hb⟩ := setText_spec hb hq (i := 2) rfl
      rw [e, bind_ok, gdbData]
      obtain ⟨m₅, e, hb⟩ := setData_spec hb [(number : Int), (l.2.1 : Int), if false then 1 else 0, (address : Int)]
      rw [e, bind_ok]
      exact .inr ⟨p, m₅, rfl, hb⟩
  | none =>
    dsimp only at hc
    cases h2
    rw [hc, bind_ok]
    dsimp only
    by_cases c : 0 < (skipString s c!"<signal handler called>").1
    · rw [if_pos c, if_pos c, gdbData]
      obtain ⟨m₅, e, hb⟩ := setData_spec h [(number : Int), ((2 ^ 32 - 1 : Nat) : Int), if true then 1 else 0, (address : Int)]
      rw [e, bind_ok]
      exact .inr ⟨p, m₅, rfl, hb⟩
    · rw [if_neg c, if_neg c, release_frame h]
      exact .inr ⟨[], rfl⟩

theorem gdbHeader_spec (A : Allocator) (m : Mem) {s v} (hv : Gdb.parseHeader s = .ok v) : MakesFrame m v (gdbHeader A s m) := by
  obtain ⟨n, h1, h2⟩ := bind_ok_iff.1 hv
  rw [gdbHeader]
  rcases new_spec A .gdbFrame .null m with e | ⟨p, m', e, h⟩
  · rw [e]; exact .inl rfl
  replace h : Built .gdbFrame .null m m' p { texts := [none, none, none, none] } := h
  rw [e, bind_ok]
  dsimp only
  rw [h1, bind_ok]
  cases n with
  | none =>
    cases h2
    dsimp only
    rw [release_frame h]
    exact .inr ⟨[], rfl⟩
  | some n =>
    dsimp only at h2 ⊢
    obtain ⟨a, h3, h4⟩ := bind_ok_iff.1 h2
    rcases gdbAddress_spec A m' h3 with e | ha
    · rw [e]; exact .inl rfl
    obtain ⟨a, r⟩ := a
    cases r with
    | none =>
      dsimp only at ha h4
      rw [ha, bind_ok]
      exact gdbWithout_spec A h h4
    | some r =>
      obtain ⟨q₁, q₀, m₁, e, hq⟩ := ha
      dsimp only at h4
      obtain ⟨l, h5, h6⟩ := bind_ok_iff.1 h4
      rw [e, bind_ok]
      dsimp only
      obtain ⟨m₂, e, hb⟩ := gdbNames_spec h hq
      rw [e, bind_ok]
      rcases gdbLocation_spec A m₂ h5 with e | hl
      · rw [e]; exact .inl rfl
      cases l with
      | none =>
        cases h6
        dsimp only at hl
        rw [hl, bind_ok]
        dsimp only
        rw [gdbData]
        obtain ⟨m₅, e, hb⟩ := setData_spec hb [(n.1 : Int), ((2 ^ 32 - 1 : Nat) : Int), if false then 1 else 0, (a : Int)]
        rw [e, bind_ok]
        exact .inr ⟨p, m₅, rfl, hb⟩
      | some l =>
        cases h6
        obtain ⟨q, m₃, e, hq⟩ := hl
        rw [e, bind_ok]
        dsimp only
        obtain ⟨m₄, e, hb⟩ := setText_spec hb hq (i := 2) rfl
        rw [e, bind_ok, gdbData]
        obtain ⟨m₅, e, hb⟩ := setData_spec hb [(n.1 : Int), (l.2.1 : Int), if false then 1 else 0, (a : Int)]
        rw [e, bind_ok]
        exact .inr ⟨p, m₅, rfl, hb⟩

theorem gdbFrame_spec (A : Allocator) (m : Mem) {s v} (hv : Gdb.parseFrame s = .ok v) : MakesFrame m v (gdbFrame A s m) := by
  obtain ⟨r, h1, h2⟩ := bind_ok_iff.1 hv
  rw [gdbFrame]
  rcases gdbHeader_spec A m h1 with e | h
  · rw [e]; exact .inl rfl
  cases r with
  | none =>
    cases h2
    obtain ⟨t, e⟩ := h
    rw [e, bind_ok]
    dsimp only
    rw [if_pos rfl]
    exact .inr ⟨s, rfl⟩
  | some r =>
    obtain ⟨p, m', e, hb⟩ := h
    rw [e, bind_ok]
    dsimp only at h2 ⊢
    rw [if_neg hb.ne]
    split at h2
    · rename_i c
      cases h2
      rw [if_pos c]
      exact .inr ⟨p, m', rfl, hb⟩
    · rename_i c
      rw [if_neg c]
      obtain ⟨t, h3, h4⟩ := bind_ok_iff.1 h2
      cases h4
      rw [h3, bind_ok]
      exact .inr ⟨p, m', rfl, hb⟩

end Satyr.Heap
