import Verif.Heap.KoopsTextTrace
/-!
# Reading a kernel oops from text loses only certain texts (C148)
-/
namespace Satyr.Heap
open Satyr.CStr
open Satyr.Text
open Satyr.Frames
open Satyr.Json (Value)

/-! ## Lines -/

/-- The two labels of a line. -/
theorem koopsLabels_spec (A : Allocator) {text m₀ lost w st p m} (h : Reading text m₀ lost w st p m) {ends b rest} {u : Str}
    (hb : Koops.altStart u = .ok (b, rest)) :
    ∃ m₁, (if ends then freeBlock m w else .ok m) = .ok m₁ ∧ (koopsLabel A u m₁ = .abort ∨
    ∃ new m₂, koopsLabel A u m₁ = .ok (new, rest, m₂) ∧
      Reading text m₀ (lost ++ if b.isSome ∧ ends = false then st.stack.toList else []) (if new ≠ 0 then new else if ends then 0 else w)
        { st with stack := if b.isSome then b else if ends then none else st.stack } p m₂) := by
  cases ends with
  | true =>
    obtain ⟨m₁, e, hR⟩ := h.end
    refine ⟨m₁, e, ?_⟩
    rcases koopsLabel_spec A hR hb with e | hL
    · exact .inl e
    · cases b with
      | none =>
        dsimp only at hL
        exact .inr ⟨0, m₁, hL, by simpa using hR⟩
      | some l =>
        obtain ⟨q, m₂, hq, e, hR'⟩ := hL
        refine .inr ⟨q, m₂, e, ?_⟩
        rw [if_pos hq]
        simpa using hR'
  | false =>
    refine ⟨m, rfl, ?_⟩
    rcases koopsLabel_spec A h hb with e | hL
    · exact .inl e
    · cases b with
      | none =>
        dsimp only at hL
        exact .inr ⟨0, m, hL, by simpa using h⟩
      | some l =>
        obtain ⟨q, m₂, hq, e, hR'⟩ := hL
        refine .inr ⟨q, m₂, e, ?_⟩
        rw [if_pos hq]
        simpa using hR'

theorem koopsTraceLine_spec (A : Allocator) {text m₀ lost w st p m} (h : Reading text m₀ lost w st p m)
    (hsz : st.frames.length + 1 < text.length + 3) {inp st' rest} (hv : Koops.traceLine st inp = .ok (st', rest)) :
    ∃ l, Koops.replacedLabel st inp = .ok l ∧ (koopsTraceLine A (text.length + 3) p w inp m = .abort ∨
    ∃ w' m', koopsTraceLine A (text.length + 3) p w inp m = .ok (w', rest, m') ∧ Reading text m₀ (lost ++ l) w' st' p m') := by
  unfold koopsTraceLine Koops.replacedLabel
  unfold Koops.traceLine at hv
  obtain ⟨⟨ends, u⟩, h1, h2⟩ := bind_ok_iff.1 hv
  clear hv
  rw [h1, bind_ok, Out.bind_ok]
  dsimp only at h2 ⊢
  obtain ⟨⟨b, u'⟩, h3, h4⟩ := bind_ok_iff.1 h2
  clear h2
  rw [h3, Out.bind_ok]
  refine ⟨_, rfl, ?_⟩
  obtain ⟨m₁, e, hL⟩ := koopsLabels_spec A h (ends := ends) h3
  rw [e, bind_ok]
  rcases hL with e | ⟨new, m₂, e, hR⟩
  · rw [e]; exact .inl rfl
  rw [e, bind_ok]
  dsimp only at h4 ⊢
  generalize (if new ≠ 0 then new else if ends = true then 0 else w) = w' at hR ⊢
  generalize (if b.isSome = true then b else if ends = true then none else st.stack) = stack at hR h4
  obtain ⟨v, h5, h6⟩ := bind_ok_iff.1 h4
  rcases koopsStore_spec A hR hsz h5 with e | hS
  · rw [e]; exact .inl rfl
  cases v with
  | none =>
    dsimp only at h6 hS
    obtain ⟨c, h7, h8⟩ := bind_ok_iff.1 h6
    cases h8
    rw [hS c h7, bind_ok]
    exact .inr ⟨w', m₂, rfl, hR⟩
  | some r =>
    obtain ⟨f, t⟩ := r
    cases h6
    obtain ⟨m', e, hR'⟩ := hS
    rw [e, bind_ok]
    exact .inr ⟨w', m', rfl, hR'⟩

/-- The frame of the instruction pointer. -/
theorem Reading.first {text m₀ lost w st p m} (h : Reading text m₀ lost w st p m) (hsz : st.frames.length + 1 < text.length + 3) {q m' f}
    (hf : Built .koopsFrame .null m m' q (koopsFramePart f)) :
    ∃ m'', prepend p q m' = .ok m'' ∧ Reading text m₀ lost w { st with frames := f :: st.frames, ip := true } p m'' := by
  obtain ⟨m₁, m₂, h1, h2, h3⟩ := h
  obtain ⟨m'', e, hb⟩ := prepend_spec (s := .frames) (l := [.koopsFrame]) h3 rfl hf rfl (by
    rw [weight_sized]
    show 1 + (chainsOf _).size < _
    rw [koopsChain_size]
    show 1 + st.frames.length < _
    omega) rfl rfl (koopsChain_typed _)
  exact ⟨m'', e, m₁, m₂, h1, h2, hb⟩

theorem koopsLine_spec (A : Allocator) {text m₀ lost w st p m} (h : Reading text m₀ lost w st p m)
    (hsz : st.frames.length + 1 < text.length + 3) {inp st' rest} (hinp : inp.length ≤ text.length) (hv : Koops.line st inp = .ok (st', rest)) :
    st'.frames.length ≤ st.frames.length + 1 ∧
    ∃ l, Koops.lostInLine st inp = .ok l ∧ (koopsLine A (text.length + 3) p w st.ip inp m = .abort ∨
    ∃ w' m', koopsLine A (text.length + 3) p w st.ip inp m = .ok (w', st'.ip, rest, m') ∧ Reading text m₀ (lost ++ l) w' st' p m') := by
  unfold koopsLine Koops.lostInLine
  unfold Koops.line at hv
  obtain ⟨v, h1, h2⟩ := bind_ok_iff.1 hv
  clear hv
  have hM := koopsFirstModules_spec A h hinp h1
  rw [h1, Out.bind_ok]
  cases v with
  | some x =>
    obtain ⟨mods, t⟩ := x
    cases h2
    obtain ⟨l, hl, hM⟩ := hM
    refine ⟨by simp, l, hl, ?_⟩
    rcases hM with e | ⟨m', e, hR⟩
    · rw [e]; exact .inl rfl
    · rw [e, bind_ok]
      exact .inr ⟨w, m', rfl, hR⟩
  | none =>
    dsimp only at h2 hM ⊢
    rw [hM, bind_ok]
    dsimp only
    rw [if_neg (by simp)]
    obtain ⟨v, h3, h4⟩ := bind_ok_iff.1 h2
    clear h2
    rw [h3, Out.bind_ok]
    have hI : FrameMade m v (if st.ip then .ok (0, [], ⟨m, none⟩) else koopsIp A inp ⟨m, none⟩) := by
      unfold Koops.firstIp at h3
      split at h3
      · rename_i hip
        cases h3
        rw [if_pos hip]
        exact .inr ⟨[], _, rfl, rfl⟩
      · rename_i hip
        rw [if_neg hip]
        exact koopsIp_spec A h3
    cases v with
    | some x =>
      obtain ⟨f, t⟩ := x
      cases h4
      refine ⟨by simp, [], rfl, ?_⟩
      rcases frameMade_some hI with e | ⟨q, m', e, hb⟩
      · rw [e]; exact .inl rfl
      rw [e, bind_ok]
      dsimp only
      rw [if_pos hb.ne]
      obtain ⟨m'', e, hR⟩ := h.first hsz hb
      rw [e, bind_ok]
      exact .inr ⟨w, m'', rfl, by rw [List.append_nil]; exact hR⟩
    | none =>
      dsimp only at h4 ⊢
      obtain ⟨l, hl, hT⟩ := koopsTraceLine_spec A h hsz h4
      refine ⟨?_, l, hl, ?_⟩
      · unfold Koops.traceLine at h4
        obtain ⟨_, _, h5⟩ := bind_ok_iff.1 h4
        obtain ⟨_, _, h6⟩ := bind_ok_iff.1 h5
        obtain ⟨v, _, h7⟩ := bind_ok_iff.1 h6
        cases v with
        | some r => cases h7; simp
        | none => obtain ⟨_, _, h8⟩ := bind_ok_iff.1 h7; cases h8; simp
      · rcases frameMade_none hI with e | ⟨r, e⟩
        · rw [e]; exact .inl rfl
        rw [e, bind_ok]
        dsimp only
        rw [if_neg (by simp)]
        have hip : st'.ip = st.ip := by
          unfold Koops.traceLine at h4
          obtain ⟨_, _, h5⟩ := bind_ok_iff.1 h4
          obtain ⟨_, _, h6⟩ := bind_ok_iff.1 h5
          obtain ⟨v, _, h7⟩ := bind_ok_iff.1 h6
          cases v with
          | some r => cases h7; rfl
          | none => obtain ⟨_, _, h8⟩ := bind_ok_iff.1 h7; cases h8; rfl
        rcases hT with e | ⟨w', m', e, hR⟩
        · rw [e]; exact .inl rfl
        rw [e, bind_ok]
        exact .inr ⟨w', m', by rw [hip], hR⟩

theorem lostInLine_total {st : Koops.State} {inp : Str} {r} (hv : Koops.line st inp = .ok r) : ∃ l, Koops.lostInLine st inp = .ok l := by
  unfold Koops.lostInLine
  unfold Koops.line at hv
  obtain ⟨v, h1, h2⟩ := bind_ok_iff.1 hv
  rw [h1, Out.bind_ok]
  cases v with
  | some x =>
    obtain ⟨mods, t⟩ := x
    dsimp only
    unfold Koops.firstModules at h1
    split at h1
    · cases h1
    · obtain ⟨_, l, hl, _⟩ := koopsModules_spec ⟨fun _ => none, fun _ _ h => by cases h⟩ (fun _ => none) h1
      exact ⟨l, hl⟩
  | none =>
    dsimp only at h2 ⊢
    obtain ⟨v, h3, h4⟩ := bind_ok_iff.1 h2
    rw [h3, Out.bind_ok]
    cases v with
    | some x => exact ⟨[], rfl⟩
    | none =>
      dsimp only at h4 ⊢
      unfold Koops.traceLine at h4
      unfold Koops.replacedLabel
      obtain ⟨_, h5, h6⟩ := bind_ok_iff.1 h4
      obtain ⟨_, h7, _⟩ := bind_ok_iff.1 h6
      rw [h5, Out.bind_ok, h7, Out.bind_ok]
      exact ⟨_, rfl⟩

theorem lostInLines_total : ∀ (fuel : Nat) (st : Koops.State) (inp : Str) {r}, Koops.traceLoop fuel st inp = .ok r →
    ∃ l, Koops.lostInLines fuel st inp = .ok l
  | 0, _, _, _, hv => by cases hv
  | fuel + 1, st, inp, r, hv => by
    rw [Koops.traceLoop] at hv
    rw [Koops.lostInLines]
    split at hv
    · rename_i h0; rw [if_pos h0]; exact ⟨[], rfl⟩
    rename_i h0
    rw [if_neg h0]
    obtain ⟨u1, h1, h2⟩ := bind_ok_iff.1 hv
    obtain ⟨u2, h3, h4⟩ := bind_ok_iff.1 h2
    obtain ⟨u3, h5, h6⟩ := bind_ok_iff.1 h4
    rw [h1, Out.bind_ok, h3, Out.bind_ok, h5, Out.bind_ok]
    split at h6
    · rename_i hc; rw [if_pos hc]; exact ⟨[], rfl⟩
    rename_i hc
    rw [if_neg hc]
    obtain ⟨u4, h7, h8⟩ := bind_ok_iff.1 h6
    obtain ⟨u5, h9, h10⟩ := bind_ok_iff.1 h8
    obtain ⟨l, hl⟩ := lostInLine_total h7
    obtain ⟨l', hl'⟩ := lostInLines_total fuel _ _ h10
    rw [hl, Out.bind_ok, h7, Out.bind_ok, h9, Out.bind_ok, hl', Out.bind_ok]
    exact ⟨_, rfl⟩

theorem koopsLoop_spec (A : Allocator) {text m₀ p} : ∀ (fuel : Nat) (st : Koops.State) (inp : Str) (w : Ptr) (lost : List Str) (m : Mem) {st' rest},
    Reading text m₀ lost w st p m → st.frames.length + fuel < text.length + 2 → Koops.Rest text inp → Koops.AllStand text st.frames →
    Koops.traceLoop fuel st inp = .ok (st', rest) →
    ∃ l, Koops.lostInLines fuel st inp = .ok l ∧ (koopsLoop A (text.length + 3) p fuel w st.ip inp m = .abort ∨
    ∃ w' m', koopsLoop A (text.length + 3) p fuel w st.ip inp m = .ok (w', rest, m') ∧ Reading text m₀ (lost ++ l) w' st' p m')
  | 0, _, _, _, _, _, _, _, _, _, _, _, hv => by cases hv
  | fuel + 1, st, inp, w, lost, m, st', rest, h, hsz, hin, hst, hv => by
    rw [Koops.traceLoop] at hv
    rw [Koops.lostInLines, koopsLoop]
    by_cases h0 : peek inp = '\x00'
    · rw [if_pos h0] at hv ⊢
      rw [if_pos h0]
      cases hv
      exact ⟨[], rfl, .inr ⟨w, m, rfl, by rw [List.append_nil]; exact h⟩⟩
    rw [if_neg h0] at hv ⊢
    rw [if_neg h0]
    obtain ⟨u1, h1, h2⟩ := bind_ok_iff.1 hv
    clear hv
    have r1 : Koops.Rest inp u1 := by
      obtain ⟨r, e, hr⟩ := Koops.rest_blanks inp
      rw [h1] at e; cases e; exact hr
    rw [h1, bind_ok, Out.bind_ok]
    obtain ⟨⟨b, u2⟩, h3, h4⟩ := bind_ok_iff.1 h2
    clear h2
    have r2 : Koops.Rest u1 u2 := by
      obtain ⟨r, e, hr⟩ := Koops.timestamp_yields u1
      rw [h3] at e; cases e; exact hr
    rw [h3, bind_ok, Out.bind_ok]
    dsimp only at h4 ⊢
    obtain ⟨u3, h5, h6⟩ := bind_ok_iff.1 h4
    clear h4
    have r3 : Koops.Rest u2 u3 := by
      obtain ⟨r, e, hr⟩ := Koops.rest_blanks u2
      rw [h5] at e; cases e; exact hr
    rw [h5, bind_ok, Out.bind_ok]
    have r : Koops.Rest text u3 := hin.trans (r1.trans (r2.trans r3))
    by_cases hc : (skipString u3 c!"Last Breaking-Event-Address:\n").1 ≠ 0
    · rw [if_pos hc] at h6 ⊢
      rw [if_pos hc]
      cases h6
      exact ⟨[], rfl, .inr ⟨w, m, rfl, by rw [List.append_nil]; exact h⟩⟩
    rw [if_neg hc] at h6 ⊢
    rw [if_neg hc]
    obtain ⟨⟨st1, u4⟩, h7, h8⟩ := bind_ok_iff.1 h6
    clear h6
    obtain ⟨r4, hst1⟩ : Koops.Rest u3 u4 ∧ Koops.AllStand text st1.frames := by
      obtain ⟨r', e, hr⟩ := Koops.line_yields text u3 st r hst
      rw [h7] at e; cases e; exact ⟨hr.1, hr.2.1⟩
    obtain ⟨hlen, l, hl, hL⟩ := koopsLine_spec A h (by omega) r.len h7
    rw [hl, Out.bind_ok, h7, Out.bind_ok]
    dsimp only at h8 ⊢
    obtain ⟨⟨b', u5⟩, h9, h10⟩ := bind_ok_iff.1 h8
    clear h8
    have r5 : Koops.Rest u4 u5 := by
      obtain ⟨r', e, hr⟩ := Koops.rest_char u4 (c := '\n') (by decide)
      rw [h9] at e; cases e; exact hr.1
    rw [h9, Out.bind_ok]
    dsimp only at h10 ⊢
    rcases hL with e | ⟨w', m', e, hR⟩
    · -- the list of what is lost does not depend on the memory
      obtain ⟨l', hl'⟩ := lostInLines_total fuel st1 u5 h10
      rw [hl', Out.bind_ok, e]
      exact ⟨_, rfl, .inl rfl⟩
    · obtain ⟨l', hl', hx⟩ := koopsLoop_spec A fuel st1 u5 w' (lost ++ l) m' hR (by omega) (r.trans (r4.trans r5)) hst1 h10
      rw [hl', Out.bind_ok, e, bind_ok]
      dsimp only
      rw [h9, bind_ok]
      refine ⟨_, rfl, ?_⟩
      rw [List.append_assoc] at hx
      exact hx

/-! ## Theorems -/

/-- C148: reading a kernel oops, whatever the text is, the program aborts for lack of memory, or the stack trace is in memory that was
not in use, the texts that are lost are in memory that was not in use, and all other memory is as before. -/
theorem C148_koops (A : Allocator) (inp : Str) (m : Mem) :
    ∃ k rest lost, Koops.parseTrace inp = .ok (k, rest) ∧ Koops.lostTexts inp = .ok lost ∧ (koopsTrace A inp m = .abort ∨
    ∃ p m₁ m' f, koopsTrace A inp m = .ok (p, rest, m') ∧ Leaves m lost m₁ ∧ Holds m' ((koopsTracePart k).chain .koopsTrace 0) true p f ∧
      Adds m₁ m' f) := by
  obtain ⟨⟨st, rest⟩, hv, -⟩ := Koops.traceLoop_yields inp (inp.length + 1) {} inp (by omega) (Koops.Rest.refl _) (fun k hk => by cases hk)
  have hp : Koops.parseTrace inp = .ok ({ taint := Satyr.Koops.parseTaintFlags inp {}, modules := st.modules, rawOops := some inp, frames := st.frames, reason := some (inp.takeWhile (· ≠ '\n')) }, rest) := by
    unfold Koops.parseTrace
    rw [hv]
    rfl
  obtain ⟨lost, hl⟩ := lostInLines_total _ _ _ hv
  refine ⟨_, rest, lost, hp, hl, ?_⟩
  unfold koopsTrace
  rcases new_spec A .koopsTrace (sized (inp.length + 2)) m with e | ⟨p, m₁, e, h⟩
  · rw [e]; exact .inl rfl
  rw [e, bind_ok]
  dsimp only
  rcases storeText_spec A h .rawOops inp none rfl with e | ⟨m₂, e, h2⟩
  · rw [e]; exact .inl rfl
  rw [e, bind_ok]
  obtain ⟨m₃, e, h3⟩ := storeData_spec h2 (taintData (Satyr.Koops.parseTaintFlags inp {})) none
  rw [e, bind_ok]
  rcases storeText_spec A h3 .reason (inp.takeWhile (· ≠ '\n')) none rfl with e | ⟨m₄, e, h4⟩
  · rw [e]; exact .inl rfl
  rw [e, bind_ok]
  have hR : Reading inp m [] 0 {} p m₄ := ⟨m, m, .none m, ⟨rfl, rfl⟩, h4⟩
  obtain ⟨l, hl', hx⟩ := koopsLoop_spec A (inp.length + 1) {} inp 0 [] m₄ hR (by simp) (Koops.Rest.refl _) (fun k hk => by cases hk) hv
  have hl'' : l = lost := by rw [hl] at hl'; cases hl'; rfl
  subst hl''
  rcases hx with e | ⟨w, m₅, e, hR'⟩
  · have e' : koopsLoop A (inp.length + 3) p (inp.length + 1) 0 false inp m₄ = .abort := e
    rw [e']; exact .inl rfl
  have e' : koopsLoop A (inp.length + 3) p (inp.length + 1) 0 false inp m₄ = .ok (w, rest, m₅) := e
  rw [e', bind_ok]
  dsimp only
  obtain ⟨m₆, e, a, b, i1, i2, i3⟩ := hR'.end
  rw [e, bind_ok]
  obtain ⟨_, rfl⟩ := i2
  obtain ⟨f, j1, j2⟩ := i3.whole rfl
  exact .inr ⟨p, a, m₆, f, rfl, i1, j1, j2⟩

/-- C148, the case in which nothing is lost. -/
theorem C148_nothing_lost_partial (A : Allocator) (inp : Str) (m : Mem) (h : Koops.lostTexts inp = .ok []) :
    ∃ k rest, Koops.parseTrace inp = .ok (k, rest) ∧ (koopsTrace A inp m = .abort ∨
    ∃ p m' f, koopsTrace A inp m = .ok (p, rest, m') ∧ Holds m' ((koopsTracePart k).chain .koopsTrace 0) true p f ∧ Adds m m' f) := by
  obtain ⟨k, rest, lost, h1, h2, h3⟩ := C148_koops A inp m
  rw [h] at h2
  cases h2
  refine ⟨k, rest, h1, ?_⟩
  rcases h3 with e | ⟨p, m₁, m', f, e, h4, h5, h6⟩
  · exact .inl e
  · obtain ⟨ps, h7, h8⟩ := h4.texts
    cases h7
    have : m₁ = m := funext fun y => h8.same y (by simp)
    subst this
    exact .inr ⟨p, m', f, e, h5, h6⟩

theorem altStart_none {u : Str} (h : '<' ∉ u) {b rest} (hv : Koops.altStart u = .ok (b, rest)) : b = none := by
  unfold Koops.altStart at hv
  obtain ⟨t, h1, h2⟩ := bind_ok_iff.1 hv
  have hr : Koops.Rest u t := by
    obtain ⟨r, e, hr⟩ := Koops.rest_blanks u
    rw [h1] at e; cases e; exact hr
  obtain ⟨⟨ok, t'⟩, h3, h4⟩ := bind_ok_iff.1 h2
  cases ok with
  | false => cases h4; rfl
  | true =>
    obtain ⟨r, e, hr'⟩ := Koops.char_yields' t (c := '<') (by decide)
    obtain ⟨r2, e2, hr2⟩ := Koops.rest_char t (c := '<') (by decide)
    rw [h3] at e e2; cases e; cases e2
    rcases hr' with hr' | ⟨_, hr'⟩
    · obtain ⟨w, rfl⟩ := hr
      exact absurd (by rw [hr']; simp) h
    · have := hr2.2 rfl
      simp only at hr' this
      rw [hr'] at this
      omega

theorem line_rest {st : Koops.State} {inp : Str} {st' u} (hv : Koops.line st inp = .ok (st', u)) : Koops.Rest inp u := by
  have key : ∀ st0 : Koops.State, st0.modules = st.modules → st0.ip = st.ip → ∃ st1, Koops.line st0 inp = .ok (st1, u) := by
    intro st0 e1 e2
    unfold Koops.line at hv ⊢
    have f1 : Koops.firstModules st0 inp = Koops.firstModules st inp := by unfold Koops.firstModules; rw [e1]
    have f2 : Koops.firstIp st0 inp = Koops.firstIp st inp := by unfold Koops.firstIp; rw [e2]
    rw [f1, f2]
    obtain ⟨v, h1, h2⟩ := bind_ok_iff.1 hv
    rw [h1, Out.bind_ok]
    cases v with
    | some x => cases h2; exact ⟨_, rfl⟩
    | none =>
      dsimp only at h2 ⊢
      obtain ⟨v, h3, h4⟩ := bind_ok_iff.1 h2
      rw [h3, Out.bind_ok]
      cases v with
      | some x => cases h4; exact ⟨_, rfl⟩
      | none =>
        dsimp only at h4 ⊢
        unfold Koops.traceLine at h4 ⊢
        obtain ⟨_, h5, h6⟩ := bind_ok_iff.1 h4
        obtain ⟨_, h7, h8⟩ := bind_ok_iff.1 h6
        obtain ⟨v, h9, h10⟩ := bind_ok_iff.1 h8
        rw [h5, Out.bind_ok, h7, Out.bind_ok]
        dsimp only
        rw [h9, Out.bind_ok]
        cases v with
        | some r => cases h10; exact ⟨_, rfl⟩
        | none =>
          dsimp only at h10 ⊢
          obtain ⟨_, h11, h12⟩ := bind_ok_iff.1 h10
          cases h12
          rw [h11, Out.bind_ok]
          exact ⟨_, rfl⟩
  obtain ⟨st1, e⟩ := key { st with frames := [] } rfl rfl
  obtain ⟨r, e', hr⟩ := Koops.line_yields inp inp { st with frames := [] } (Koops.Rest.refl _) (fun k hk => by cases hk)
  rw [e] at e'
  cases e'
  exact hr.1

/-- Text without labels and without lists of modules. -/
def Plain (s : Str) : Prop := '<' ∉ s ∧ ∀ a b, s ≠ a ++ (c!"Modules linked in:" ++ b)

theorem Plain.rest {s t : Str} (h : Plain s) (hr : Koops.Rest s t) : Plain t := by
  obtain ⟨u, rfl⟩ := hr
  exact ⟨fun hm => h.1 (by simp [hm]), fun a b e => h.2 (u ++ a) b (by rw [e, List.append_assoc])⟩

theorem lostInLine_plain {st : Koops.State} {inp : Str} (h : Plain inp) {l} (hv : Koops.lostInLine st inp = .ok l) : l = [] := by
  unfold Koops.lostInLine at hv
  obtain ⟨v, h1, h2⟩ := bind_ok_iff.1 hv
  cases v with
  | some x =>
    exfalso
    obtain ⟨mods, t⟩ := x
    unfold Koops.firstModules at h1
    split at h1
    · cases h1
    · obtain ⟨r, e, hr⟩ := Koops.modules_yields inp
      rw [h1] at e; cases e
      obtain ⟨_, _, w, b, e, _⟩ := hr mods t rfl
      exact h.2 w b e
  | none =>
    dsimp only at h2
    obtain ⟨v, h3, h4⟩ := bind_ok_iff.1 h2
    cases v with
    | some x => cases h4; rfl
    | none =>
      dsimp only at h4
      unfold Koops.replacedLabel at h4
      obtain ⟨⟨ends, u⟩, h5, h6⟩ := bind_ok_iff.1 h4
      obtain ⟨⟨b, u'⟩, h7, h8⟩ := bind_ok_iff.1 h6
      cases h8
      have hr : Koops.Rest inp u := by
        obtain ⟨r, e, hr⟩ := Koops.altEnd_yields inp
        rw [h5] at e; cases e; exact hr
      rw [altStart_none (h.rest hr).1 h7]
      rfl

theorem lostInLines_plain : ∀ (fuel : Nat) (st : Koops.State) (inp : Str) {l}, Plain inp → Koops.lostInLines fuel st inp = .ok l → l = []
  | 0, _, _, _, _, hv => by cases hv
  | fuel + 1, st, inp, l, h, hv => by
    rw [Koops.lostInLines] at hv
    split at hv
    · cases hv; rfl
    obtain ⟨u1, h1, h2⟩ := bind_ok_iff.1 hv
    obtain ⟨⟨b, u2⟩, h3, h4⟩ := bind_ok_iff.1 h2
    obtain ⟨u3, h5, h6⟩ := bind_ok_iff.1 h4
    have r1 : Koops.Rest inp u1 := by
      obtain ⟨r, e, hr⟩ := Koops.rest_blanks inp
      rw [h1] at e; cases e; exact hr
    have r2 : Koops.Rest u1 u2 := by
      obtain ⟨r, e, hr⟩ := Koops.timestamp_yields u1
      rw [h3] at e; cases e; exact hr
    have r3 : Koops.Rest u2 u3 := by
      obtain ⟨r, e, hr⟩ := Koops.rest_blanks u2
      rw [h5] at e; cases e; exact hr
    split at h6
    · cases h6; rfl
    have h3' := h.rest (r1.trans (r2.trans r3))
    obtain ⟨l1, h7, h8⟩ := bind_ok_iff.1 h6
    obtain ⟨⟨st1, u4⟩, h9, h10⟩ := bind_ok_iff.1 h8
    obtain ⟨⟨b', u5⟩, h11, h12⟩ := bind_ok_iff.1 h10
    obtain ⟨l2, h13, h14⟩ := bind_ok_iff.1 h12
    cases h14
    have r4 : Koops.Rest u3 u4 := line_rest h9
    have r5 : Koops.Rest u4 u5 := by
      obtain ⟨r', e, hr⟩ := Koops.rest_char u4 (c := '\n') (by decide)
      rw [h11] at e; cases e; exact hr.1
    rw [lostInLine_plain h3' h7, lostInLines_plain fuel _ _ (h3'.rest (r4.trans r5)) h13]
    rfl

/-- C148: nothing is lost if the text has neither a label of a stack nor a list of modules. -/
theorem C148_plain_partial (A : Allocator) (inp : Str) (m : Mem) (h1 : '<' ∉ inp) (h2 : ∀ a b, inp ≠ a ++ (c!"Modules linked in:" ++ b)) :
    ∃ k rest, Koops.parseTrace inp = .ok (k, rest) ∧ (koopsTrace A inp m = .abort ∨
    ∃ p m' f, koopsTrace A inp m = .ok (p, rest, m') ∧ Holds m' ((koopsTracePart k).chain .koopsTrace 0) true p f ∧ Adds m m' f) := by
  obtain ⟨_, _, lost, _, hl, _⟩ := C148_koops A inp m
  have : lost = [] := lostInLines_plain _ _ _ ⟨h1, h2⟩ hl
  subst this
  exact C148_nothing_lost_partial A inp m hl

/-- The full claim is false: the label of a stack stays in memory if another one follows. -/
theorem C148_not_labels (A : Allocator) (m : Mem) :
    koopsTrace A c!"<IRQ>\n<NMI>\n" m = .abort ∨ ∃ p q m' f k, koopsTrace A c!"<IRQ>\n<NMI>\n" m = .ok (p, [], m') ∧
      q ≠ 0 ∧ m q = none ∧ m' q = some (.text c!"IRQ") ∧ Holds m' ((koopsTracePart k).chain .koopsTrace 0) true p f ∧ q ∉ f := by
  obtain ⟨k, rest, lost, h1, h2, h3⟩ := C148_koops A c!"<IRQ>\n<NMI>\n" m
  have hl : Koops.lostTexts c!"<IRQ>\n<NMI>\n" = .ok [c!"IRQ"] := by decide +kernel
  have hr : (Koops.parseTrace c!"<IRQ>\n<NMI>\n" >>= fun r => Out.ok r.2) = .ok [] := by decide +kernel
  rw [hl] at h2
  cases h2
  rw [h1, Out.bind_ok] at hr
  cases hr
  rcases h3 with e | ⟨p, m₁, m', f, e, h4, h5, h6⟩
  · exact .inl e
  · obtain ⟨q, hq, hq', rfl⟩ := h4.get
    have hqf : q ∉ f := fun hf => by have := h6.fresh q hf; rw [set_eq] at this; cases this
    exact .inr ⟨p, q, m', f, k, e, hq, hq', by rw [h6.same q hqf, set_eq], h5, hqf⟩

/-- The full claim is false: the second part of a name of a module stays in memory. -/
theorem C148_not_modules (A : Allocator) (m : Mem) :
    koopsTrace A c!"Modules linked in: ext\n4\n" m = .abort ∨ ∃ p q m' f k, koopsTrace A c!"Modules linked in: ext\n4\n" m = .ok (p, [], m') ∧
      k.modules = some [c!"ext4"] ∧ q ≠ 0 ∧ m q = none ∧ m' q = some (.text c!"4") ∧
      Holds m' ((koopsTracePart k).chain .koopsTrace 0) true p f ∧ q ∉ f := by
  obtain ⟨k, rest, lost, h1, h2, h3⟩ := C148_koops A c!"Modules linked in: ext\n4\n" m
  have hl : Koops.lostTexts c!"Modules linked in: ext\n4\n" = .ok [c!"4"] := by decide +kernel
  have hr : (Koops.parseTrace c!"Modules linked in: ext\n4\n" >>= fun r => Out.ok (r.1.modules, r.2)) = .ok (some [c!"ext4"], []) := by decide +kernel
  rw [hl] at h2
  cases h2
  rw [h1, Out.bind_ok] at hr
  obtain ⟨hr1, hr2⟩ : k.modules = some [c!"ext4"] ∧ rest = [] := by
    have := Out.ok.inj hr
    exact ⟨congrArg Prod.fst this, congrArg Prod.snd this⟩
  subst hr2
  rcases h3 with e | ⟨p, m₁, m', f, e, h4, h5, h6⟩
  · exact .inl e
  · obtain ⟨q, hq, hq', rfl⟩ := h4.get
    have hqf : q ∉ f := fun hf => by have := h6.fresh q hf; rw [set_eq] at this; cases this
    exact .inr ⟨p, q, m', f, k, e, hr1, hq, hq', by rw [h6.same q hqf, set_eq], h5, hqf⟩

/-- What there is at the end: the address of the stack trace, and the number of blocks in use. -/
def seen148 (o : Out (Ptr × Str × Mem)) : Option (Ptr × Nat) :=
  match o with
  | .ok (p, _, m) => some (p, ((List.range 60).filter fun x => (m x).isSome).length)
  | _ => none

set_option maxRecDepth 40000

/-- `C148_nothing_lost_partial`: a text with an instruction, a label, two frames and two modules. -/
def koops148 : Str :=
  c!"BUG: x\nModules linked in: a b [last unloaded: c]\nRIP: 0010:[<10>] [<10>] f+0x1/0x2\nCall Trace:\n <IRQ>  [<20>] g+0x1/0x2 [kvm]\n <EOI> [<30>] h+0x1/0x2\n"

example : Koops.lostTexts koops148 = .ok [] := by decide +kernel

example : seen148 (koopsTrace firstFree koops148 (fun _ => none)) = some (1, 16) := by decide +kernel

/-- `C148_koops`: another label and a broken name of a module; two of the sixteen blocks are lost. -/
def lost148 : Str :=
  c!"BUG: x\nModules linked in: a\nb [last unloaded: c]\nRIP: 0010:[<10>] [<10>] f+0x1/0x2\nCall Trace:\n <NMI>\n <IRQ>  [<20>] g+0x1/0x2 [kvm]\n <EOI> [<30>] h+0x1/0x2\n"

example : Koops.lostTexts lost148 = .ok [c!"b", c!"NMI"] := by decide +kernel

example : seen148 (koopsTrace firstFree lost148 (fun _ => none)) = some (1, 16) := by decide +kernel

/-- The conditions of `C148_plain_partial`. -/
example : '<' ∉ c!"BUG: x\nRIP: 0010:f+0x1/0x2\nCall Trace:\n g+0x1/0x2 [kvm]\n" ∧
    ∀ a b, c!"BUG: x\nRIP: 0010:f+0x1/0x2\nCall Trace:\n g+0x1/0x2 [kvm]\n" ≠ a ++ (c!"Modules linked in:" ++ b) :=
  ⟨by decide, fun a b e => by
    have : 'M' ∈ c!"BUG: x\nRIP: 0010:f+0x1/0x2\nCall Trace:\n g+0x1/0x2 [kvm]\n" := by rw [e]; simp
    exact absurd this (by decide)⟩

end Satyr.Heap
