import Verif.Heap.GdbTextFrames
import Verif.CStr.Exact
/-!
# Reading gdb stack traces from text: memory of threads
-/
namespace Satyr.Heap
open Satyr.CStr
open Satyr.Frames
open Satyr.Normalize (GdbFrame)
open Satyr.Json (Value)

/-! ## Specification -/

/-- The contents of a thread. -/
def gdbThreadPart (t : GdbThread) : Part :=
  { data := [(t.number : Int), (t.tid : Int)], a := chainsOf (t.frames.map fun f => (gdbFramePart f).chain .gdbFrame 0) }

/-- What reading a thread does. -/
def MakesThread (m : Mem) (v : Option (GdbThread × Str)) (o : Out (Ptr × Str × Mem)) : Prop :=
  o = .abort ∨ match v with
  | none => ∃ t, o = .ok (0, t, m)
  | some (f, t) => ∃ p m' j, o = .ok (p, t, m') ∧ Built .gdbThread j m m' p (gdbThreadPart f)

/-! ## Lists -/

/-- The last structure of a list has no next one. -/
theorem last_next {v : Chain} : ∀ {m : Mem} {p : Ptr} {f : List Ptr}, v ≠ .nil → Holds m v true p f →
    ∃ r, m (nth m p (v.length - 1)) = some (.record r) ∧ r.next = 0 ∧ nth m p (v.length - 1) ≠ 0 := by
  induction v with
  | nil => intro m p f h; exact absurd rfl h
  | cons k d ts cr a b c e next _ _ _ _ ihn =>
    intro m p f _ hv
    obtain ⟨r, g, fn, h1, h0, hpg, hg, hn, rfl⟩ := hv.split
    by_cases hnil : next = .nil
    · subst hnil
      obtain ⟨e1, _⟩ := hn
      exact ⟨r, h1, e1, h0⟩
    · obtain ⟨r', h2, h3, h4⟩ := ihn hnil hn
      have hl : next.length = (next.length - 1) + 1 := by
        cases next with
        | nil => exact absurd rfl hnil
        | cons => simp [Chain.length]
      have : nth m p ((Chain.cons k d ts cr a b c e next).length - 1) = nth m r.next (next.length - 1) := by
        show nth m p (next.length + 1 - 1) = _
        rw [Nat.add_sub_cancel]
        conv => lhs; rw [hl]
        rw [nth, h1]
      rw [this]
      exact ⟨r', h2, h3, h4⟩

theorem link_append {m : Mem} {p q : Ptr} {r : Record} (h : m p = some (.record r)) (hn : r.next = 0) : appendLoop 1 p q m = link p q m := by
  rw [appendLoop, link, readRecord, h]
  dsimp only
  rw [bind_ok, bind_ok, if_neg (by simp [hn])]

/-- One more structure at the end of the list. -/
theorem gdbAppend_spec {k j j' m₀ m p x kf m' q y last} {s : Slot} {l : List Kind} (h : Built k j m₀ m p x) (hx : x.crash = none)
    (hf : Built kf j' m m' q y) (hy : y.crash = none) (hsz : (y.chain kf 0).size + x.a.size < weight j) (hslot : (slots k)[0]? = some (s, l))
    (hs : s.isList = true) (hty : (y.chain kf 0).Typed l) (hlast : x.a ≠ .nil → Ends m p (x.a.length - 1) last) (hnil : x.a = .nil → last = 0) :
    ∃ m₂, gdbAppend p last q m' = .ok m₂ ∧ Built k j m₀ m₂ p { x with a := x.a.append (y.chain kf 0) } ∧ Ends m₂ p x.a.length q := by
  obtain ⟨m₂, e1, e2, e3, e4⟩ := attach_spec h hx hf hy hsz hslot hs hty hlast
  refine ⟨m₂, ?_, e2, e3⟩
  obtain ⟨_, r, fs, fa, fb, fc, fe, h0, h1, _, _, _, ha, _⟩ := h
  have hA : Ext m m' := hf.ext
  by_cases c : x.a = .nil
  · rw [gdbAppend, hnil c, if_neg (by simp)]
    rw [c] at ha
    obtain ⟨ha, _⟩ := ha
    rw [attach] at e1
    have : readRecord m' p = .ok r := by rw [readRecord, hA p (by rw [h1]; simp), h1]
    rw [this, bind_ok] at e1 ⊢
    rwa [if_pos ha] at e1
  · obtain ⟨r₁, hr₁, hr₂⟩ := hlast c
    rw [h1] at hr₁
    cases hr₁
    obtain ⟨r', h2, h3, h4⟩ := last_next c ha
    rw [hr₂] at h2 h4
    rw [gdbAppend, if_pos h4, link_append (by rw [hA last (by rw [h2]; simp), h2]) h3]
    exact e4 c

/-! ## Threads -/

theorem frames_size (l : List GdbFrame) : (chainsOf (l.map fun f => (gdbFramePart f).chain .gdbFrame 0)).size = l.length := size_chains _ (fun _ => rfl) l

theorem chains_length {α : Type} (f : α → Chain) (hf : ∀ x, (f x).length = 1) (l : List α) : (chainsOf (l.map f)).length = l.length := by
  induction l with
  | nil => rfl
  | cons c l ih => simp only [List.map_cons, chainsOf, length_append, hf, ih, List.length_cons]; omega

theorem chains_snoc {α : Type} (f : α → Chain) (l : List α) (x : α) : (chainsOf (l.map f)).append (f x) = chainsOf ((l ++ [x]).map f) := by
  rw [List.map_append, chainsOf_append]
  simp [chainsOf, append_nil]

theorem chains_nil {α : Type} (f : α → Chain) (hf : ∀ x, (f x).length = 1) (l : List α) : chainsOf (l.map f) = .nil ↔ l = [] := by
  constructor
  · intro h
    have := chains_length f hf l
    rw [h] at this
    exact List.length_eq_zero_iff.1 this.symm
  · rintro rfl; rfl

theorem frame_typed (f : GdbFrame) : ((gdbFramePart f).chain .gdbFrame 0).Typed [.gdbFrame] := by
  simp [Part.chain, Chain.Typed, gdbFramePart, texts, slots, MemberOk]

theorem gdbFrames_spec (A : Allocator) {j m₀ p number tid} : ∀ (fuel : Nat) (s : Str) (acc : List GdbFrame) (last : Ptr) (m : Mem) {v},
    Built .gdbThread j m₀ m p (gdbThreadPart ⟨number, tid, acc⟩) → (acc ≠ [] → Ends m p (acc.length - 1) last) → (acc = [] → last = 0) →
    Gdb.framesLoop fuel s = .ok v → acc.length + v.1.length < weight j →
    gdbFrames A p fuel last s m = .abort ∨
    ∃ q m', gdbFrames A p fuel last s m = .ok (q, v.2, m') ∧ Built .gdbThread j m₀ m' p (gdbThreadPart ⟨number, tid, acc ++ v.1⟩)
  | 0, _, _, _, _, _, _, _, _, hv, _ => by cases hv
  | fuel + 1, s, acc, last, m, v, h, hl, hn, hv, hsz => by
    rw [Gdb.framesLoop] at hv
    rw [gdbFrames]
    obtain ⟨f, h1, h2⟩ := bind_ok_iff.1 hv
    rcases gdbFrame_spec A m h1 with e | hf
    · rw [e]; exact .inl rfl
    cases f with
    | none =>
      cases h2
      obtain ⟨t, e⟩ := hf
      rw [e, bind_ok]
      dsimp only
      rw [if_pos rfl]
      exact .inr ⟨last, m, rfl, by simpa using h⟩
    | some f =>
      obtain ⟨f, t⟩ := f
      obtain ⟨q, m', e, hb⟩ := hf
      dsimp only at h2
      obtain ⟨r, h3, h4⟩ := bind_ok_iff.1 h2
      cases h4
      rw [e, bind_ok]
      dsimp only at hsz ⊢
      rw [List.length_cons] at hsz
      rw [if_neg hb.ne]
      have hlen : ∀ l : List GdbFrame, (chainsOf (l.map fun f => (gdbFramePart f).chain .gdbFrame 0)).length = l.length := chains_length _ fun _ => rfl
      have hnil : ∀ l : List GdbFrame, chainsOf (l.map fun f => (gdbFramePart f).chain .gdbFrame 0) = .nil ↔ l = [] := chains_nil _ fun _ => rfl
      obtain ⟨m₂, e2, hb2, hends⟩ := gdbAppend_spec (s := .frames) (l := [.gdbFrame]) (last := last) h rfl hb rfl (by
        show 1 + (chainsOf _).size < _
        rw [frames_size]; show 1 + acc.length < _; omega) rfl rfl (frame_typed f) (fun c => by
          show Ends m p ((chainsOf _).length - 1) last
          rw [hlen]
          exact hl fun e => c ((hnil acc).2 e)) (fun c => hn ((hnil acc).1 c))
      rw [e2, bind_ok]
      have hb2 : Built .gdbThread j m₀ m₂ p (gdbThreadPart ⟨number, tid, acc ++ [f]⟩) := by
        have := chains_snoc (fun f => (gdbFramePart f).chain .gdbFrame 0) acc f
        unfold gdbThreadPart
        dsimp only
        rw [← this]
        exact hb2
      have hends : Ends m₂ p acc.length q := by
        have : (gdbThreadPart ⟨number, tid, acc⟩).a.length = acc.length := hlen acc
        rwa [this] at hends
      have := gdbFrames_spec A fuel t (acc ++ [f]) q m₂ hb2 (fun _ => by simpa using hends) (by simp) h3 (by simp; omega)
      simpa using this

theorem gdbThreadFrames_spec (A : Allocator) {m₀ m p} (h : ∀ j, Built .gdbThread j m₀ m p {}) {number tid s v}
    (hv : Gdb.threadFrames number tid s = .ok v) : MakesThread m₀ v (gdbThreadFrames A p number tid s m) := by
  obtain ⟨r, h1, h2⟩ := bind_ok_iff.1 hv
  rw [gdbThreadFrames]
  obtain ⟨m₁, e, hb⟩ := setData_spec (h (sized r.1.length)) [(number : Int), (tid : Int)]
  rw [e, bind_ok]
  rcases gdbFrames_spec A (number := number) (tid := tid) _ s [] 0 m₁ hb (by simp) (fun _ => rfl) h1 (by rw [weight_sized]; simp) with e | ⟨q, m', e, hb⟩
  · rw [e]; exact .inl rfl
  rw [e, bind_ok]
  dsimp only
  have hb' := hb
  obtain ⟨hok, rc, fs, fa, fb, fc, fe, h0, k1, _, _, _, ha, _⟩ := hb'
  rw [readRecord, k1]
  dsimp only
  rw [bind_ok]
  cases h2
  by_cases c : r.1 = []
  · rw [if_pos c]
    have : rc.a = 0 := by
      rw [List.nil_append, c] at ha
      exact ha.1
    rw [if_pos this, hb.release (by simp) (by rw [List.nil_append, c]; simp [gdbThreadPart, Part.chain, chainsOf, Chain.size]) false]
    exact .inr ⟨s, rfl⟩
  · rw [if_neg c, if_neg (ha.ne fun e => c ((chains_nil _ (fun _ => rfl) _).1 e))]
    exact .inr ⟨p, m', _, rfl, hb⟩

theorem gdbThread_spec (A : Allocator) (m : Mem) {s v} (hv : Gdb.parseThread s = .ok v) : MakesThread m v (gdbThread A s m) := by
  rw [Gdb.parseThread] at hv
  rw [gdbThread]
  rcases alloc_spec A (newRecord .gdbThread) m with e | ⟨p, e, hp, hA⟩
  · rw [e]; exact .inl rfl
  have hb : ∀ j, Built .gdbThread j m (m.set p (some (newRecord .gdbThread))) p {} := fun j => built_new j hp hA
  rw [e, bind_ok]
  dsimp only
  split at hv
  · rename_i c
    rw [if_pos c]
    exact gdbThreadFrames_spec A hb hv
  · rename_i c
    rw [if_neg c]
    obtain ⟨h, h1, h2⟩ := bind_ok_iff.1 hv
    rw [h1, bind_ok]
    cases h with
    | none =>
      cases h2
      dsimp only
      rw [(hb .null).release (by simp) (by decide) false]
      exact .inr ⟨s, rfl⟩
    | some h => exact gdbThreadFrames_spec A hb h2

end Satyr.Heap
