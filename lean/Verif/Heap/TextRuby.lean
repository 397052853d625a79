import Verif.Heap.TextTracePython
/-!
# Reading stack traces from text: memory of Ruby stack traces
-/
namespace Satyr.Heap
open Satyr.CStr
open Satyr.Text
open Satyr.Frames
open Satyr.Json (Value)

/-- Without the location. -/
def plain {α β : Type} (f : α → β) (v : Ruby.Failure ⊕ α) : Str ⊕ β := v.map Prod.snd f

theorem rubyFile_spec (A : Allocator) {m₀ m p w l} (h : Built .rubyFrame .null m₀ m p { texts := [none, none] }) (hw : w ≠ 0) (hfree : m w = none)
    {loc v} (err : Option Ptr) (hv : Ruby.fileAndLineL l loc = .ok v) :
    rubyFile A p w l ⟨m.set w (some (.text l)), err⟩ = .abort ∨
    match (generalizing := false) v with
    | .inl (_, msg) => ∃ s, rubyFile A p w l ⟨m.set w (some (.text l)), err⟩ = .ok (none, s) ∧ Reported (m.set w (some (.text l))) err msg s
    | .inr (file, line) => ∃ m', rubyFile A p w l ⟨m.set w (some (.text l)), err⟩ = .ok (some line, ⟨m', err⟩) ∧
        Built .rubyFrame .null m₀ m' p { texts := [some file, none] } := by
  have hfail : ∀ msg : Str, failWith (α := Nat) A msg ⟨m.set w (some (.text l)), err⟩ = .abort ∨
      ∃ s, failWith (α := Nat) A msg ⟨m.set w (some (.text l)), err⟩ = .ok (none, s) ∧ Reported (m.set w (some (.text l))) err msg s := by
    intro msg
    unfold failWith
    rcases setError_spec A msg ⟨m.set w (some (.text l)), err⟩ with e | ⟨s, e, hs⟩
    · rw [e]; exact .inl rfl
    · rw [e]; exact .inr ⟨s, rfl, hs⟩
  unfold rubyFile
  unfold Ruby.fileAndLineL at hv
  split at hv
  · rename_i hc
    rw [if_pos hc]
    cases hv
    exact hfail _
  rename_i hc
  rw [if_neg hc]
  obtain ⟨i, h1, h2⟩ := bind_ok_iff.1 hv
  rw [h1, bind_ok]
  obtain ⟨⟨n, line, u⟩, h3, h4⟩ := bind_ok_iff.1 h2
  clear hv h2
  rw [h3, bind_ok]
  cases line with
  | none => cases h4; exact hfail _
  | some line =>
    dsimp only at h4 ⊢
    by_cases hi : i = 0
    · rw [if_pos hi] at h4 ⊢
      cases h4
      exact hfail _
    rw [if_neg hi] at h4 ⊢
    obtain ⟨c, h5, h6⟩ := bind_ok_iff.1 h4
    rw [h5, bind_ok]
    by_cases hcc : c ≠ ':'
    · rw [if_pos hcc] at h6 ⊢
      cases h6
      exact hfail _
    rw [if_neg hcc] at h6 ⊢
    cases h6
    obtain ⟨m', e, hb⟩ := adoptText_spec (l := l) h hw hfree .fileName ((l.take (l.length - 4)).take (i - 1)) err rfl
    rw [e, bind_ok]
    rcases anonymizeMember_spec A hb .fileName _ err rfl with e | ⟨m₃, e, hb⟩
    · rw [e]; exact .inl rfl
    rw [e, bind_ok]
    exact .inr ⟨m₃, rfl, hb⟩

theorem rubyName_spec (A : Allocator) {j m₀ m p} {file : Option Str} (h : Built .rubyFrame j m₀ m p { texts := [file, none] })
    {inp loc v} (err : Option Ptr) (hv : Ruby.functionNameL inp loc = .ok v) :
    Fills .rubyFrame j m₀ p err (plain (fun x => ((x.1, x.2.2.1), { texts := [file, some x.2.1] })) v) (rubyName A p inp ⟨m, err⟩) := by
  unfold rubyName
  unfold Ruby.functionNameL at hv
  obtain ⟨⟨special, t⟩, h1, h2⟩ := bind_ok_iff.1 hv
  obtain ⟨⟨name, t'⟩, h3, h4⟩ := bind_ok_iff.1 h2
  clear hv h2
  rw [h1, bind_ok]
  dsimp only at h3 h4 ⊢
  rcases parseMember_spec A h .functionName t c!"'>" err rfl h3 with e | e
  · rw [e]; exact .inl rfl
  cases name with
  | none =>
    cases h4
    dsimp only at e
    rw [e, bind_ok]
    exact failWith_spec A h _ err
  | some name =>
    obtain ⟨m', e, hb⟩ := e
    rw [e, bind_ok]
    dsimp only at h4 ⊢
    rw [if_neg (by decide)]
    obtain ⟨⟨ok, t₂⟩, h5, h6⟩ := bind_ok_iff.1 h4
    rw [h5, bind_ok]
    dsimp only at h6 ⊢
    by_cases ho : ok = false
    · rw [if_pos ho] at h6 ⊢
      cases h6
      exact failWith_spec A hb _ err
    rw [if_neg ho] at h6 ⊢
    obtain ⟨⟨ok', t₃⟩, h7, h8⟩ := bind_ok_iff.1 h6
    rw [h7, bind_ok]
    dsimp only at h8 ⊢
    by_cases ho : ok' = false
    · rw [if_pos ho] at h8 ⊢
      cases h8
      exact failWith_spec A hb _ err
    rw [if_neg ho] at h8 ⊢
    cases h8
    exact .inr ⟨m', rfl, hb⟩

theorem blocks_of {s loc v} (h : Ruby.blocksL s loc = .ok v) : Ruby.blocks s = .ok (match (generalizing := false) v with
    | .inl _ => none
    | .inr (n, t, _) => some (n, t)) ∧ ∀ e, v = .inl e → e.2 = c!"Unable to parse block depth." := by
  unfold Ruby.blocksL at h
  unfold Ruby.blocks
  generalize skipString s c!"block in " = r at *
  obtain ⟨k, t⟩ := r
  dsimp only at h ⊢
  by_cases hk : k ≠ 0
  · rw [if_pos hk] at h ⊢
    cases h
    exact ⟨rfl, fun e he => by cases he⟩
  rw [if_neg hk] at h ⊢
  generalize skipString s c!"block (" = r at *
  obtain ⟨k', t'⟩ := r
  dsimp only at h ⊢
  by_cases hk' : k' = 0
  · rw [if_pos hk'] at h ⊢
    cases h
    exact ⟨rfl, fun e he => by cases he⟩
  rw [if_neg hk'] at h ⊢
  obtain ⟨⟨len, n, u⟩, h1, h2⟩ := bind_ok_iff.1 h
  rw [h1, Out.bind_ok]
  cases n with
  | none => cases h2; exact ⟨rfl, fun e he => by cases he; rfl⟩
  | some n =>
    dsimp only at h2 ⊢
    generalize skipString u c!" levels) in " = r at *
    obtain ⟨k'', t''⟩ := r
    dsimp only at h2 ⊢
    by_cases hk'' : k'' = 0
    · rw [if_pos hk''] at h2 ⊢
      cases h2
      exact ⟨rfl, fun e he => by cases he; rfl⟩
    rw [if_neg hk''] at h2 ⊢
    cases h2
    exact ⟨rfl, fun e he => by cases he⟩

theorem rubyFrame_spec (A : Allocator) {m inp loc v} (err : Option Ptr) (hv : Ruby.parseFrameL inp loc = .ok v) :
    Makes .rubyFrame m err (plain (fun x => (x.2.1, rubyFramePart x.1)) v) (rubyFrame A inp ⟨m, err⟩) := by
  unfold rubyFrame
  unfold Ruby.parseFrameL at hv
  obtain ⟨⟨l, s⟩, h1, h2⟩ := bind_ok_iff.1 hv
  clear hv
  dsimp only
  rcases new_spec A .rubyFrame .null m with e | ⟨p, m', e, hb⟩
  · rw [e]; exact .inl rfl
  rw [e, bind_ok]
  dsimp only
  rw [h1, bind_ok]
  cases l with
  | none =>
    cases h2
    exact endFrame_spec (by decide) (failWith_spec A hb _ err)
  | some l =>
    dsimp only at h2 ⊢
    rcases alloc_spec A (.text l) m' with e | ⟨w, e, hw, hA⟩
    · rw [e]; exact .inl rfl
    rw [e, bind_ok]
    have hfree := hA.fresh w (by simp)
    obtain ⟨v1, h3, h4⟩ := bind_ok_iff.1 h2
    clear h2
    rcases rubyFile_spec A (l := l) hb hw hfree err h3 with e | hf
    · dsimp only; rw [e]; exact .inl rfl
    cases v1 with
    | inl e0 =>
      obtain ⟨l0, msg⟩ := e0
      cases h4
      obtain ⟨s', e, hs⟩ := hf
      dsimp only
      rw [e, bind_ok]
      dsimp only
      have hr := hb.rebase hA (set_eq _ _ _)
      obtain ⟨m₂, e2, hs2⟩ := hr.free (n := 16) (fun h => by cases h) hs false (Nat.le_refl _)
      rw [e2, bind_ok]
      have hmw : m w = none := by
        have := hb.ext
        by_contra hc
        have := this w hc
        rw [hfree] at this
        exact hc this.symm
      have hAw : Adds m (m.set w (some (.text l))) [w] :=
        ⟨by simp, by simpa using hmw, by simp [set_eq], fun y hy => set_ne _ _ (by simpa using hy)⟩
      have hm2 : m₂ w ≠ none := by
        have := hs2.ext w (by rw [set_eq]; simp)
        dsimp only at this
        rw [this, set_eq]; simp
      rw [freeBlock_spec hw hm2, bind_ok]
      exact .inr ⟨[], _, rfl, hs2.erase hAw⟩
    | inr fl =>
      obtain ⟨file, line⟩ := fl
      obtain ⟨m₂, e, hb2⟩ := hf
      dsimp only at h4 ⊢
      rw [e, bind_ok]
      refine endFrame_spec (by decide) ?_
      dsimp only
      unfold rubyFunction
      obtain ⟨⟨ok, t⟩, h5, h6⟩ := bind_ok_iff.1 h4
      clear h4
      rw [h5, bind_ok]
      dsimp only at h6 ⊢
      by_cases ho : ok = false
      · rw [if_pos ho] at h6 ⊢
        cases h6
        exact failWith_spec A hb2 _ err
      rw [if_neg ho] at h6 ⊢
      generalize Ruby.rescues (t.length + 1) t 0 = r at *
      obtain ⟨rescue, t'⟩ := r
      dsimp only at h6 ⊢
      obtain ⟨v2, h7, h8⟩ := bind_ok_iff.1 h6
      obtain ⟨hbl, hmsg⟩ := blocks_of h7
      rw [hbl, bind_ok]
      cases v2 with
      | inl e0 =>
        cases h8
        have := failWith_spec (β := Str) A hb2 e0.2 err
        rw [hmsg e0 rfl] at this
        show Fills _ _ _ _ _ (.inl e0.2) _
        rw [hmsg e0 rfl]
        exact this
      | inr v2 =>
        obtain ⟨block, t₂, loc₂⟩ := v2
        dsimp only at h8 ⊢
        obtain ⟨v3, h9, h10⟩ := bind_ok_iff.1 h8
        rcases rubyName_spec A hb2 err h9 with e | hn
        · rw [e]; exact .inl rfl
        cases v3 with
        | inl e0 =>
          cases h10
          obtain ⟨m₃, x, s', e, hb3, hs⟩ := hn
          rw [e, bind_ok]
          exact .inr ⟨m₃, x, s', rfl, hb3, hs⟩
        | inr v3 =>
          obtain ⟨special, name, t₃, loc₃⟩ := v3
          cases h10
          obtain ⟨m₃, e, hb3⟩ := hn
          rw [e, bind_ok]
          obtain ⟨m₄, e, hb4⟩ := storeData_spec hb3 [if special = true then 1 else 0, (line : Int), (block : Int), (rescue : Int)] err
          dsimp only
          rw [e, bind_ok]
          exact .inr ⟨m₄, rfl, hb4⟩

/-! ## Stack traces -/

theorem Built.grow {k j j' m₀ m p x} (h : Built k j m₀ m p x) (hj : weight j ≤ weight j') : Built k j' m₀ m p x := by
  obtain ⟨hok, h⟩ := h
  exact ⟨⟨hok.length, hok.a, hok.b, hok.c, hok.e, by have := hok.sizeA; omega, by have := hok.sizeB; omega, by have := hok.sizeC; omega,
    by have := hok.sizeE; omega, hok.crash⟩, h⟩

/-- The stack trace while it is read. -/
def rubySoFar (name : Option Str) (frames : List RubyFrame) : Part := rubyTracePart ⟨name, frames⟩

theorem size_rubySoFar (name : Option Str) (frames : List RubyFrame) : (rubySoFar name frames).a.size = frames.length :=
  size_chains (fun f => (rubyFramePart f).chain .rubyFrame 0) (fun _ => rfl) frames

theorem length_rubySoFar (name : Option Str) (frames : List RubyFrame) : (rubySoFar name frames).a.length = frames.length := by
  unfold rubySoFar rubyTracePart
  induction frames with
  | nil => rfl
  | cons f l ih =>
    dsimp only at ih ⊢
    rw [List.map_cons, chainsOf, length_append, ih, List.length_cons]
    show 1 + _ = _
    omega

theorem rubySoFar_ne {name : Option Str} {frames : List RubyFrame} (h : frames ≠ []) : (rubySoFar name frames).a ≠ .nil := fun hn => by
  have := size_rubySoFar name frames
  rw [hn] at this
  exact h (List.length_eq_zero_iff.1 this.symm)

theorem rubyFrames_spec (A : Allocator) {j m₀ p} {name : Option Str} (err : Option Ptr) : ∀ (fuel : Nat) (inp : Str) (loc : Loc)
    (acc : List RubyFrame) (last : Ptr) (m : Mem) {v}, acc ≠ [] → Built .rubyTrace j m₀ m p (rubySoFar name acc) →
    Ends m p (acc.length - 1) last → acc.length + fuel < weight j → Ruby.framesLoopL fuel inp loc acc = .ok v →
    Fills .rubyTrace j m₀ p err (plain (fun x => (x.2, rubySoFar name x.1)) v) (rubyFrames A fuel last inp ⟨m, err⟩)
  | 0, _, _, _, _, _, _, _, _, _, _, hv => by cases hv
  | fuel + 1, inp, loc, acc, last, m, v, hacc, h, hlast, hsz, hv => by
    rw [Ruby.framesLoopL] at hv
    rw [rubyFrames]
    by_cases hp : peek inp = '\x00'
    · rw [if_pos hp] at hv ⊢
      cases hv
      exact .inr ⟨m, rfl, h⟩
    rw [if_neg hp] at hv ⊢
    generalize skipString inp c!"\tfrom " = r at *
    obtain ⟨k, t⟩ := r
    dsimp only at hv ⊢
    by_cases hk : k = 0
    · rw [if_pos hk] at hv ⊢
      cases hv
      exact failWith_spec A h _ err
    rw [if_neg hk] at hv ⊢
    obtain ⟨v1, h1, h2⟩ := bind_ok_iff.1 hv
    clear hv
    rcases rubyFrame_spec A (m := m) err h1 with e | hf
    · rw [e]; exact .inl rfl
    cases v1 with
    | inl e0 =>
      cases h2
      obtain ⟨rest, s, e, hs⟩ := hf
      rw [e, bind_ok]
      dsimp only
      obtain ⟨m₁, hb1, _⟩ := hs.rebase h
      have hlast' : Ends s.mem p (acc.length - 1) last := by
        obtain ⟨r, e1, e2⟩ := hlast
        obtain ⟨_, r1, fs, fa, fb, fc, fe, _, g1, _, _, _, ha, _⟩ := h
        rw [e1] at g1
        cases g1
        refine ⟨r, by rw [hs.ext p (by rw [e1]; simp), e1], ?_⟩
        rw [← e2]
        refine (nth_congr ha (fun y hy => hs.ext y (ha.used y hy)) ?_).1
        rw [length_rubySoFar]
        have := List.length_pos_iff.2 hacc
        omega
      rw [link_null hb1 (rubySoFar_ne hacc) (by rw [length_rubySoFar]; exact hlast'), bind_ok, if_pos rfl]
      exact .inr ⟨m, _, s, rfl, h, hs⟩
    | inr v1 =>
      obtain ⟨f, t', loc'⟩ := v1
      dsimp only at h2
      obtain ⟨q, m', e, hb⟩ := hf
      rw [e, bind_ok]
      dsimp only
      obtain ⟨m₂, e1, hb2, he2, hl2⟩ := attach_spec (s := .frames) (l := [.rubyFrame]) (last := last) h rfl hb rfl (by
        rw [size_rubySoFar]; show 1 + _ < _; omega) rfl rfl (by simp [Part.chain, Chain.Typed, rubyFramePart, texts, slots, MemberOk])
        (fun _ => by rw [length_rubySoFar]; exact hlast)
      rw [hl2 (rubySoFar_ne hacc), bind_ok, if_neg hb.ne]
      have hb3 : Built .rubyTrace j m₀ m₂ p (rubySoFar name (acc ++ [f])) := by
        refine Eq.mp ?_ hb2
        congr 1
        simp only [rubySoFar, rubyTracePart, List.map_append, chainsOf_append, List.map_cons, List.map_nil, chainsOf, append_nil]
      obtain ⟨⟨nl, t''⟩, h3, h4⟩ := bind_ok_iff.1 h2
      rw [h3, bind_ok]
      dsimp only at h4 ⊢
      by_cases hc : nl = false ∧ peek t'' ≠ '\x00'
      · rw [if_pos hc] at h4 ⊢
        cases h4
        exact failWith_spec A hb3 _ err
      rw [if_neg hc] at h4 ⊢
      exact rubyFrames_spec A err fuel _ _ _ q m₂ (by simp) hb3 (by
        rw [length_rubySoFar] at he2
        simpa using he2) (by simp; omega) h4

theorem rubyClass_spec (A : Allocator) {j m₀ m p} {frames : List RubyFrame} (h : Built .rubyTrace j m₀ m p (rubySoFar none frames)) {msg loc v}
    (err : Option Ptr) (hv : Ruby.exceptionClassL msg loc = .ok v) :
    Fills .rubyTrace j m₀ p err (plain (fun name => ((), rubySoFar (some name) frames)) v) (rubyClass A p msg ⟨m, err⟩) ∧
    ∀ s x, rubyClass A p msg ⟨m, err⟩ = .ok (some x, s) → ∀ q, Ends m p 0 q → Ends s.mem p 0 q := by
  have hends : ∀ (str : Str) s', storeText A p .rubyTrace .exceptionName str ⟨m, err⟩ = .ok s' → ∀ q, Ends m p 0 q → Ends s'.mem p 0 q := by
    intro str s' hs q hq
    obtain ⟨r, hr, hq⟩ := hq
    unfold storeText at hs
    dsimp only at hs
    rcases alloc_spec A (.text str) m with e | ⟨w, e, hw, hA⟩
    · rw [e] at hs; cases hs
    rw [e, bind_ok] at hs
    have : m.set w (some (.text str)) p = some (.record r) := by rw [hA.ext p (by rw [hr]; simp), hr]
    simp only [readRecord, this, bind_ok, writeRecord] at hs
    cases hs
    exact ⟨_, set_eq _ _ _, hq⟩
  unfold rubyClass
  unfold Ruby.exceptionClassL at hv
  have hfail : ∀ {m : Mem} {x : Part} (msg : Str) (P : State → Prop), Built .rubyTrace j m₀ m p x → Fills (β := Unit) .rubyTrace j m₀ p err (.inl msg) (failWith A msg ⟨m, err⟩) ∧
      ∀ s x, failWith (α := Unit) A msg ⟨m, err⟩ = .ok (some x, s) → P s := by
    intro m x msg P hb
    refine ⟨failWith_spec A hb msg err, fun s x hs => ?_⟩
    unfold failWith at hs
    cases he : setError A msg ⟨m, err⟩ <;> rw [he] at hs <;> cases hs
  split at hv
  · rename_i hc
    rw [if_pos hc]
    cases hv
    exact hfail _ _ h
  rename_i hc
  rw [if_neg hc]
  split at hv
  · rename_i hc
    rw [if_pos hc]
    cases hv
    exact hfail _ _ h
  rename_i hc'
  rw [if_neg hc']
  obtain ⟨i, h1, h2⟩ := bind_ok_iff.1 hv
  clear hv
  rw [h1, bind_ok]
  by_cases hl : ((msg.take (msg.length - 2)).drop i).length = 0
  · rw [if_pos hl] at h2 ⊢
    cases h2
    exact hfail _ _ h
  rw [if_neg hl] at h2 ⊢
  rcases storeText_spec A h .exceptionName ((msg.take (msg.length - 2)).drop i) err rfl with e | ⟨m', e, hb⟩
  · rw [e]; exact ⟨.inl rfl, fun s x hs => by cases hs⟩
  have hends' := hends _ _ e
  rw [e, bind_ok]
  by_cases hi : i = 0
  · rw [if_pos hi] at h2 ⊢
    cases h2
    exact hfail _ _ hb
  rw [if_neg hi] at h2 ⊢
  obtain ⟨c, h3, h4⟩ := bind_ok_iff.1 h2
  rw [h3, bind_ok]
  by_cases hcc : c ≠ '('
  · rw [if_pos hcc] at h4 ⊢
    cases h4
    exact hfail _ _ hb
  rw [if_neg hcc] at h4 ⊢
  cases h4
  exact ⟨.inr ⟨m', rfl, hb⟩, fun s x hs => by cases hs; exact hends'⟩

/-- What reading a stack trace does that is to give `v`. -/
def RubyReads (m : Mem) (v : Str ⊕ (Str × Part)) (o : Out (Ptr × Str × State)) : Prop :=
  o = .abort ∨ match v with
  | .inl msg => ∃ s, o = .ok (0, [], s) ∧ Reported m (some 0) msg s
  | .inr (rest, x) => ∃ p m' f, o = .ok (p, rest, ⟨m', some 0⟩) ∧ Holds m' (x.chain .rubyTrace 0) true p f ∧ Adds m m' f

theorem ends_ext {m m' : Mem} {p q : Ptr} (h : Ends m p 0 q) (he : m' p = m p) : Ends m' p 0 q := by
  obtain ⟨r, h1, h2⟩ := h
  exact ⟨r, by rw [he, h1], h2⟩

theorem fail_small {m₀ m p x msg s} (h : Built .rubyTrace (sized 2) m₀ m p x) (hs : Reported m (some 0) msg s) :
    ((free 40 p false s.mem).bind fun m => Out.ok ((0 : Ptr), ([] : Str), (⟨m, s.err⟩ : State))) = .abort ∨
    ∃ s', ((free 40 p false s.mem).bind fun m => Out.ok ((0 : Ptr), ([] : Str), (⟨m, s.err⟩ : State))) = .ok (0, [], s') ∧ Reported m₀ (some 0) msg s' := by
  obtain ⟨m', e, hr⟩ := h.free (fun h => by cases h) hs false (n := 40) (by rw [room, weight_sized]; omega)
  rw [e, bind_ok]
  exact .inr ⟨_, rfl, hr⟩

theorem rubyTrace_spec (A : Allocator) {inp loc v} (m : Mem) (hv : Ruby.parseL inp loc = .ok v)
    (hf : ∀ e, Ruby.parseFrameL inp loc ≠ .ok (.inl e)) :
    RubyReads m (plain (fun x => (x.2, rubyTracePart x.1)) v) (rubyTrace A inp ⟨m, some 0⟩) := by
  unfold rubyTrace
  unfold Ruby.parseL at hv
  obtain ⟨hd, h1, h2⟩ := bind_ok_iff.1 hv
  unfold Ruby.headL at h1
  obtain ⟨fr, h3, h4⟩ := bind_ok_iff.1 h1
  clear hv h1
  dsimp only
  rcases new_spec A .rubyTrace (sized 2) m with e | ⟨p, m', e, hb⟩
  · rw [e]; exact .inl rfl
  rw [e, bind_ok]
  dsimp only
  rcases rubyFrame_spec A (m := m') (some 0) h3 with e | hfr
  · rw [e]; exact .inl rfl
  cases fr with
  | inl e0 => exact absurd h3 (hf e0)
  | inr fr =>
    obtain ⟨f, t, loc'⟩ := fr
    obtain ⟨q, m₂, e, hbf⟩ := hfr
    rw [e, bind_ok]
    clear e
    dsimp only at h4 ⊢
    obtain ⟨m₃, e1, hb3, he3, _⟩ := attach_spec (s := .frames) (l := [.rubyFrame]) (last := 0) hb rfl hbf rfl (by
        show 1 + 0 < weight (sized 2); rw [weight_sized]; omega) rfl rfl (by simp [Part.chain, Chain.Typed, rubyFramePart, texts, slots, MemberOk])
        (fun h => absurd rfl h)
    have hstep : ∃ r, readRecord m₂ p = .ok r ∧ writeRecord m₂ p { r with a := q } = .ok m₃ := by
      have hx : m₂ p = m' p := by
        obtain ⟨_, r, _, _, _, _, _, _, g1, _⟩ := hb
        exact hbf.ext p (by rw [g1]; simp)
      obtain ⟨_, r, fs, fa, fb, fc, fe, _, g1, _, _, _, ha, _⟩ := hb
      have hra : r.a = 0 := ha.1
      unfold attach at e1
      rw [readRecord, hx, g1] at e1 ⊢
      dsimp only at e1 ⊢
      rw [bind_ok, if_pos hra] at e1
      exact ⟨r, rfl, e1⟩
    obtain ⟨r, hr1, hr2⟩ := hstep
    rw [hr1, bind_ok, hr2, bind_ok, if_neg hbf.ne]
    replace hb3 : Built .rubyTrace (sized 2) m m₃ p (rubySoFar none [f]) := hb3
    replace he3 : Ends m₃ p 0 q := he3
    unfold rubyRest
    generalize skipString t c!": " = r' at *
    obtain ⟨k, t₁⟩ := r'
    dsimp only at h4 ⊢
    by_cases hk : k = 0
    · rw [if_pos hk] at h4 ⊢
      cases h4
      cases h2
      rcases setError_spec A c!"Unable to find the colon after first function name." ⟨m₃, some 0⟩ with e | ⟨s, e, hs⟩
      · rw [e]; exact .inl rfl
      · rw [e, bind_ok]; exact fail_small hb3 hs
    rw [if_neg hk] at h4 ⊢
    obtain ⟨⟨msg, t₂⟩, h5, h6⟩ := bind_ok_iff.1 h4
    rw [h5, bind_ok]
    cases msg with
    | none =>
      cases h6
      cases h2
      rcases setError_spec A c!"Unable to find the exception type and message." ⟨m₃, some 0⟩ with e | ⟨s, e, hs⟩
      · dsimp only; rw [e]; exact .inl rfl
      · dsimp only; rw [e, bind_ok]; exact fail_small hb3 hs
    | some msg =>
      dsimp only at h6 ⊢
      obtain ⟨cl, h7, h8⟩ := bind_ok_iff.1 h6
      rcases alloc_spec A (.text msg) m₃ with e | ⟨w, e, hw, hA⟩
      · rw [e]; exact .inl rfl
      rw [e, bind_ok]
      dsimp only
      have hbw := hb3.rebase hA (set_eq _ _ _)
      have hmw : m w = none := by
        by_contra hc
        have := hb3.ext w hc
        rw [hA.fresh w (by simp)] at this
        exact hc this.symm
      have hAw : Adds m (m.set w (some (.text msg))) [w] :=
        ⟨by simp, by simpa using hmw, by simp [set_eq], fun y hy => set_ne _ _ (by simpa using hy)⟩
      obtain ⟨hc1, hc2⟩ := rubyClass_spec A hbw (some 0) h7
      rcases hc1 with e | hc1
      · rw [e]; exact .inl rfl
      cases cl with
      | inl e0 =>
        cases h8
        cases h2
        obtain ⟨m₄, x, s, e, hb4, hs⟩ := hc1
        rw [e, bind_ok]
        dsimp only
        rw [if_pos rfl]
        obtain ⟨m₅, e5, hs5⟩ := hb4.free (fun h => by cases h) hs false (n := 40) (by rw [room, weight_sized]; omega)
        rw [e5, bind_ok]
        have hm5 : m₅ w ≠ none := by
          have := hs5.ext w (by rw [set_eq]; simp)
          dsimp only at this
          rw [this, set_eq]; simp
        rw [freeBlock_spec hw hm5, bind_ok]
        exact .inr ⟨_, rfl, hs5.erase hAw⟩
      | inr name =>
        cases h8
        obtain ⟨m₄, e, hb4⟩ := hc1
        have he4 : Ends m₄ p 0 q := hc2 _ _ e q (ends_ext he3 (hA.ext p (by obtain ⟨r0, g, _⟩ := he3; rw [g]; simp)))
        rw [e, bind_ok]
        dsimp only at h2 ⊢
        rw [if_neg (by simp)]
        have hm4 : m₄ w ≠ none := by
          rw [hb4.ext w (by rw [set_eq]; simp), set_eq]; simp
        rw [freeBlock_spec hw hm4, bind_ok]
        have hb5 := (hb4.without hmw).grow (j' := sized (t₂.length + 2)) (by rw [weight_sized, weight_sized]; omega)
        have hpw : p ≠ w := fun e => by
          obtain ⟨r0, g, _⟩ := he3
          rw [e, hA.fresh w (by simp)] at g
          cases g
        have he5 : Ends (erase m₄ [w]) p 0 q := ends_ext he4 (if_neg (by simpa using hpw))
        obtain ⟨fl, h9, h10⟩ := bind_ok_iff.1 h2
        rcases rubyFrames_spec A (some 0) (t₂.length + 1) t₂ _ [f] q _ (by simp) hb5 he5 (by rw [weight_sized]; simp; omega) h9 with e | hfl
        · rw [e]; exact .inl rfl
        cases fl with
        | inl e0 =>
          cases h10
          obtain ⟨m₆, x, s, e, hb6, hs⟩ := hfl
          rw [e, bind_ok]
          dsimp only
          obtain ⟨m₇, e7, hs7⟩ := hb6.free (fun h => by cases h) hs false (n := 8 * t₂.length + 40) (by rw [room, weight_sized]; omega)
          rw [e7, bind_ok]
          exact .inr ⟨_, rfl, hs7⟩
        | inr fl =>
          obtain ⟨frames, u⟩ := fl
          cases h10
          obtain ⟨m₆, e, hb6⟩ := hfl
          rw [e, bind_ok]
          obtain ⟨g, g1, g2⟩ := hb6.whole rfl
          exact .inr ⟨p, m₆, g, rfl, g1, g2⟩

/-- The topmost frame is not found: the message about the frame is lost. -/
theorem rubyTrace_top (A : Allocator) {inp loc l msg} (m : Mem) (hv : Ruby.parseFrameL inp loc = .ok (.inl (l, msg))) :
    rubyTrace A inp ⟨m, some 0⟩ = .abort ∨
    ∃ m₁ s, Leaves m [msg] m₁ ∧ rubyTrace A inp ⟨m, some 0⟩ = .ok (0, [], s) ∧
      Reported m₁ (some 0) (c!"Topmost stacktrace frame not found: " ++ msg) s := by
  unfold rubyTrace
  dsimp only
  rcases new_spec A .rubyTrace (sized 2) m with e | ⟨p, m', e, hb⟩
  · rw [e]; exact .inl rfl
  rw [e, bind_ok]
  dsimp only
  rcases rubyFrame_spec A (m := m') (some 0) hv with e | hfr
  · rw [e]; exact .inl rfl
  obtain ⟨rest, s, e, hs⟩ := hfr
  rw [e, bind_ok]
  dsimp only
  obtain ⟨m₁, hb1, hr1⟩ := hs.rebase hb
  obtain ⟨q, hq, hq0, hst⟩ := hr1
  have hm1 : m₁ = m.set q (some (.text msg)) := congrArg State.mem hst
  have herr : s.err = some q := congrArg State.err hst
  subst hm1
  obtain ⟨_, r, fs, fa, fb, fc, fe, _, g1, _, _, _, ha, _⟩ := id hb1
  have hra : r.a = 0 := ha.1
  rw [readRecord, g1]
  dsimp only
  rw [bind_ok, writeRecord, g1]
  dsimp only
  rw [bind_ok, if_pos rfl, set_same (by rw [g1, ← hra])]
  obtain ⟨q, rfl⟩ : ∃ n, q = n + 1 := ⟨q - 1, by have : q ≠ 0 := hq0; revert this; cases q <;> simp⟩
  have hmq : s.mem (q + 1) = some (.text msg) := by
    rw [hb1.ext (q + 1) (by rw [set_eq]; simp), set_eq]
  have hmt : messageText ⟨s.mem, s.err⟩ = .ok msg := by
    rw [herr]; simp only [messageText, hmq]
  rw [hmt, bind_ok]
  rcases setError_spec A (c!"Topmost stacktrace frame not found: " ++ msg) ⟨s.mem, s.err⟩ with e | ⟨s', e, hs'⟩
  · rw [e]; exact .inl rfl
  rw [e, bind_ok]
  have hs' : Reported s.mem (some 0) (c!"Topmost stacktrace frame not found: " ++ msg) s' := by
    rw [herr] at hs'
    exact hs'
  rcases fail_small hb1 hs' with e | ⟨s₃, e, hs₃⟩
  · rw [e]; exact .inl rfl
  · rw [e]; exact .inr ⟨_, s₃, Leaves.one msg hq0 hq, rfl, hs₃⟩

end Satyr.Heap
