import Verif.Heap.TextLists
/-!
# Reading stack traces from text: memory of Python stack traces
-/
namespace Satyr.Heap
open Satyr.CStr
open Satyr.Text
open Satyr.Frames
open Satyr.Json (Value)

/-- Memory `m'` is memory `m` with these texts in addition. -/
def Leaves (m : Mem) (lost : List Str) (m' : Mem) : Prop := ∃ ps f, Texts m' (lost.map some) ps f ∧ Adds m m' f

theorem Leaves.none (m : Mem) : Leaves m [] m := ⟨[], [], .nil, by simp, by simp, by simp, fun _ _ => rfl⟩

theorem Leaves.one {m : Mem} {q : Ptr} (s : Str) (hq : q ≠ 0) (h : m q = Option.none) : Leaves m [s] (m.set q (some (.text s))) :=
  ⟨[q], [q], .some hq (set_eq _ _ _) .nil, by simp, by simpa using h, by simp [set_eq], fun x hx => set_ne _ _ (by simpa using hx)⟩

theorem Built.whole {k j m₀ m p x} (h : Built k j m₀ m p x) (hx : x.crash = none) : ∃ f, Holds m (x.chain k 0) true p f ∧ Adds m₀ m f := by
  obtain ⟨r, f, _, hw, h3, h4⟩ := h.holds
  rw [hw, hx] at h3
  exact ⟨f, h3, h4⟩

/-- A value of which a number is the weight. -/
def sized (n : Nat) : Value := .arr (List.replicate n .null)

theorem weight_sized (n : Nat) : weight (sized n) = n + 1 := by
  unfold sized
  rw [weight]
  congr 1
  induction n with
  | zero => rfl
  | succ n ih => rw [List.replicate_succ, weights, ih, weight] <;> first | omega | simp

theorem chainsOf_append (l l' : List Chain) : chainsOf (l ++ l') = (chainsOf l).append (chainsOf l') := by
  induction l with
  | nil => rfl
  | cons c l ih => simp only [List.cons_append, chainsOf, ih, append_assoc]

theorem size_chains {α : Type} (f : α → Chain) (hf : ∀ x, (f x).size = 1) (l : List α) : (chainsOf (l.map f)).size = l.length := by
  induction l with
  | nil => rfl
  | cons c l ih => simp only [List.map_cons, chainsOf, size_append, hf, ih, List.length_cons]; omega

/-- The stack trace while it is read. -/
def pythonSoFar (name : Option Str) (frames : List PythonFrame) : Part := pythonTracePart ⟨name, frames⟩

theorem pythonFrames_spec (A : Allocator) {j m₀ p} (e : Ptr) : ∀ (fuel : Nat) (inp : Str) (loc floc : Loc) (acc : List PythonFrame) (m : Mem)
    {frames rest loc' msg}, Built .pythonTrace j m₀ m p (pythonSoFar none acc) → acc.length + fuel < weight j →
    Python.framesLoopL fuel inp loc floc acc = .ok (frames, rest, loc', msg) →
    pythonFrames A p fuel inp ⟨m, some e⟩ = .abort ∨
    ∃ m' s, pythonFrames A p fuel inp ⟨m, some e⟩ = .ok (rest, s) ∧ Built .pythonTrace j m₀ m' p (pythonSoFar none frames) ∧
      Reported m' (some e) msg s
  | 0, _, _, _, _, _, _, _, _, _, _, _, hv => by cases hv
  | fuel + 1, inp, loc, floc, acc, m, frames, rest, loc', msg, h, hsz, hv => by
    rw [Python.framesLoopL] at hv
    obtain ⟨⟨v, t, floc'⟩, h1, h2⟩ := bind_ok_iff.1 hv
    clear hv
    rw [pythonFrames]
    rcases pythonFrame_spec A (some e) h1 with e' | hf
    · rw [e']; exact .inl rfl
    cases v with
    | inl msg' =>
      cases h2
      obtain ⟨s, e', hs⟩ := hf
      rw [e', bind_ok]
      dsimp only
      rw [if_pos rfl]
      exact .inr ⟨m, s, rfl, h, hs⟩
    | inr f =>
      dsimp only at h2
      obtain ⟨q, m', e', hb⟩ := hf
      rw [e', bind_ok]
      dsimp only
      rw [if_neg hb.ne]
      obtain ⟨m₂, e2, hb2⟩ := prepend_spec (s := .frames) (l := [.pythonFrame]) h rfl hb rfl (by
        have := size_chains (fun f => (pythonFramePart f).chain .pythonFrame 0) (fun _ => rfl) acc
        show 1 + (chainsOf _).size < _
        rw [this]; omega) rfl rfl (by simp [Part.chain, Chain.Typed, pythonFramePart, texts, slots, MemberOk])
      rw [e2, bind_ok]
      exact pythonFrames_spec A e fuel _ _ _ _ m₂ (frames := frames) hb2 (by rw [List.length_cons]; omega) h2

theorem framesLoopL_length : ∀ (fuel : Nat) (inp : Str) (loc floc : Loc) (acc : List PythonFrame) {frames rest loc' msg},
    Python.framesLoopL fuel inp loc floc acc = .ok (frames, rest, loc', msg) → acc.length ≤ frames.length
  | 0, _, _, _, _, _, _, _, _, hv => by cases hv
  | fuel + 1, inp, loc, floc, acc, frames, rest, loc', msg, hv => by
    rw [Python.framesLoopL] at hv
    obtain ⟨⟨v, t, floc'⟩, h1, h2⟩ := bind_ok_iff.1 hv
    cases v with
    | inl => cases h2; exact Nat.le_refl _
    | inr f =>
      have := framesLoopL_length fuel _ _ _ _ h2
      rw [List.length_cons] at this
      omega

theorem framesLoopL_first {fuel : Nat} {inp : Str} {loc floc : Loc} {frames rest loc' msg}
    (h : Python.framesLoopL fuel inp loc floc [] = .ok (frames, rest, loc', msg)) :
    ∃ v r l, Python.parseFrameL inp floc = .ok (v, r, l) ∧ (frames = [] ↔ ∃ e, v = .inl e) := by
  cases fuel with
  | zero => cases h
  | succ fuel =>
    rw [Python.framesLoopL] at h
    obtain ⟨⟨v, t, floc'⟩, h1, h2⟩ := bind_ok_iff.1 h
    refine ⟨v, t, floc', h1, ?_⟩
    cases v with
    | inl e => cases h2; simp
    | inr f =>
      have := framesLoopL_length fuel _ _ _ _ h2
      simp only [List.length_cons] at this
      constructor
      · rintro rfl; simp at this
      · rintro ⟨e, he⟩; cases he

theorem pythonTrace_spec (A : Allocator) {inp : Str} (m : Mem) (c : Message) {v} (hv : Python.parseL inp = .ok v) :
    pythonTrace A inp m c = .abort ∨ match (generalizing := false) v with
    | .inl (_, msg) =>
        (∃ q, m q = none ∧ q ≠ 0 ∧ pythonTrace A inp m c = .ok (0, inp, m.set q (some (.text msg)), .block q) ∧
          ∃ t loc e r l, Python.startL inp = .ok (.inr (t, loc)) ∧ Python.parseFrameL t Loc.init = .ok (.inl e, r, l)) ∨
        (pythonTrace A inp m c = .ok (0, inp, m, .constant msg) ∧ ∃ e, Python.startL inp = .ok (.inl e)) ∨
        ∃ m' w, pythonTrace A inp m c = .ok (0, inp, m', .constant msg) ∧ Leaves m [w] m' ∧
          ∃ t loc f r l, Python.startL inp = .ok (.inr (t, loc)) ∧ Python.parseFrameL t Loc.init = .ok (.inr f, r, l)
    | .inr (t, rest) => ∃ p m₁ m' f msg, pythonTrace A inp m c = .ok (p, rest, m', c) ∧ Leaves m [msg] m₁ ∧
        Holds m' ((pythonTracePart t).chain .pythonTrace 0) true p f ∧ Adds m₁ m' f := by
  unfold pythonTrace
  unfold Python.parseL at hv
  obtain ⟨st, h1, h2⟩ := bind_ok_iff.1 hv
  clear hv
  rw [h1, bind_ok]
  cases st with
  | inl e =>
    obtain ⟨l, msg⟩ := e
    cases h2
    exact .inr (.inr (.inl ⟨rfl, _, rfl⟩))
  | inr st =>
    obtain ⟨t, loc⟩ := st
    dsimp only at h2 ⊢
    obtain ⟨⟨frames, u, loc', msg⟩, h3, h4⟩ := bind_ok_iff.1 h2
    clear h2
    dsimp only at h4
    obtain ⟨fv, fr, fl, hfirst, hnone⟩ := framesLoopL_first h3
    rcases new_spec A .pythonTrace (sized (t.length + 1)) m with e | ⟨p, m', e, hb⟩
    · rw [e]; exact .inl rfl
    rw [e, bind_ok]
    dsimp only
    rcases pythonFrames_spec A 0 (t.length + 1) t loc Loc.init [] m' hb (by rw [weight_sized]; simp) h3 with e | ⟨m₂, s, e, hb2, hs⟩
    · rw [e]; exact .inl rfl
    rw [e, bind_ok]
    dsimp only
    obtain ⟨m₁, hb3, hr⟩ := hs.rebase hb2
    obtain ⟨q, hq, hq0, hst⟩ := hr
    have hm1 : m₁ = m.set q (some (.text msg)) := congrArg State.mem hst
    have herr : s.err = some q := congrArg State.err hst
    subst hm1
    have hroom : room (sized (t.length + 1)) ≤ 8 * t.length + 40 := by rw [room, weight_sized]; omega
    obtain ⟨_, r, fs, fa, fb, fc, fe, _, hr1, _, _, _, ha, _⟩ := id hb3
    rw [readRecord, hr1]
    dsimp only
    rw [bind_ok]
    by_cases hf : frames = []
    · subst hf
      rw [if_pos rfl] at h4
      cases h4
      have hra : r.a = 0 := ha.1
      rw [if_pos hra]
      obtain ⟨m₃, e3, e4⟩ := hb3.free (fun h => by cases h) (msg := []) (err := none) (s := ⟨_, none⟩) rfl false hroom
      have e4 : (⟨m₃, none⟩ : State) = ⟨m.set q (some (.text msg)), none⟩ := e4
      cases e4
      dsimp only at e3
      rw [e3, bind_ok, herr]
      obtain ⟨e0, rfl⟩ := hnone.1 rfl
      exact .inr (.inl ⟨q, hq, hq0, rfl, t, loc, e0, fr, fl, rfl, hfirst⟩)
    · rw [if_neg hf] at h4
      have hra : r.a ≠ 0 := ha.ne (by
        cases frames with
        | nil => exact absurd rfl hf
        | cons f l => simp [pythonSoFar, pythonTracePart, chainsOf, Part.chain, Chain.append])
      rw [if_neg hra]
      obtain ⟨⟨name, u'⟩, h5, h6⟩ := bind_ok_iff.1 h4
      obtain ⟨sm, se⟩ := s
      rcases parseMember_spec A hb3 .exceptionName u c!":\n" se rfl h5 with e | e
      · rw [e]; exact .inl rfl
      cases name with
      | none =>
        cases h6
        dsimp only at e
        rw [e, bind_ok]
        dsimp only
        rw [if_pos rfl]
        obtain ⟨m₃, e3, e4⟩ := hb3.free (fun h => by cases h) (msg := []) (err := none) (s := ⟨_, none⟩) rfl false hroom
        have e4 : (⟨m₃, none⟩ : State) = ⟨m.set q (some (.text msg)), none⟩ := e4
        cases e4
        dsimp only at e3
        rw [e3, bind_ok]
        cases fv with
        | inl e0 => exact absurd (hnone.2 ⟨e0, rfl⟩) hf
        | inr f => exact .inr (.inr (.inr ⟨_, msg, rfl, Leaves.one msg hq0 hq, t, loc, f, fr, fl, rfl, hfirst⟩))
      | some name =>
        cases h6
        obtain ⟨m₃, e, hb4⟩ := e
        rw [e, bind_ok]
        dsimp only
        rw [if_neg (by decide)]
        obtain ⟨f, h7, h8⟩ := hb4.whole rfl
        exact .inr ⟨p, _, m₃, f, msg, rfl, Leaves.one msg hq0 hq, h7, h8⟩

end Satyr.Heap
