import Verif.Heap.KoopsTextLemmas
/-!
# Reading kernel oopses from text: memory of the different frames
-/
namespace Satyr.Heap
open Satyr.CStr
open Satyr.Text
open Satyr.Frames
open Satyr.Json (Value)

/-- The function of a frame. -/
theorem koopsFunction_first (A : Allocator) {j m₀ m p} (h : Built .koopsFrame j m₀ m p { texts := [none, none, none, none, none] }) {inp v}
    (hv : Koops.parseFunction inp = .ok v) :
    Fills .koopsFrame j m₀ p none
      (quiet (v.map fun r => (((r.1.offset, r.1.length), r.2), { texts := [r.1.name, r.1.module, none, none, none] })))
      (koopsFunction A p .functionName .moduleName inp ⟨m, none⟩) :=
  koopsFunction_spec A h .functionName .moduleName (by decide) rfl rfl hv

/-- The function of the caller. -/
theorem koopsFunction_second (A : Allocator) {j m₀ m p a b} (h : Built .koopsFrame j m₀ m p { texts := [a, b, none, none, none] }) {inp v}
    (hv : Koops.parseFunction inp = .ok v) :
    Fills .koopsFrame j m₀ p none
      (quiet (v.map fun r => (((r.1.offset, r.1.length), r.2), { texts := [a, b, r.1.name, r.1.module, none] })))
      (koopsFunction A p .fromFunctionName .fromModuleName inp ⟨m, none⟩) :=
  koopsFunction_spec A h .fromFunctionName .fromModuleName (by decide) rfl rfl hv

theorem koopsPpc_spec (A : Allocator) {m inp v} (hv : Koops.parsePpc inp = .ok v) :
    Makes .koopsFrame m none (quiet (v.map fun r => (r.2, koopsFramePart r.1))) (koopsPpc A inp ⟨m, none⟩) := by
  unfold koopsPpc
  unfold Koops.parsePpc at hv
  obtain ⟨u, h1, h2⟩ := bind_ok_iff.1 hv
  clear hv
  rw [h1, bind_ok]
  rcases new_spec A .koopsFrame .null m with e | ⟨p, m₁, e, h⟩
  · rw [e]; exact .inl rfl
  rw [e, bind_ok]
  refine endFrame_spec (by decide) ?_
  unfold koopsPpcMembers
  obtain ⟨⟨_, o⟩, h3, h4⟩ := bind_ok_iff.1 h2
  clear h2
  rw [h3, bind_ok]
  cases o with
  | none => cases h4; exact quiet_fail h
  | some u1 =>
  dsimp only at h4 ⊢
  obtain ⟨u2, h5, h6⟩ := bind_ok_iff.1 h4
  clear h4
  rw [h5, bind_ok]
  obtain ⟨⟨a, o⟩, h7, h8⟩ := bind_ok_iff.1 h6
  clear h6
  rw [h7, bind_ok]
  cases o with
  | none => cases h8; exact quiet_fail h
  | some u3 =>
  dsimp only at h8 ⊢
  obtain ⟨u4, h9, h10⟩ := bind_ok_iff.1 h8
  clear h8
  rw [h9, bind_ok]
  obtain ⟨⟨_, u5⟩, h11, h12⟩ := bind_ok_iff.1 h10
  clear h10
  rw [h11, bind_ok]
  dsimp only at h12 ⊢
  obtain ⟨f, h13, h14⟩ := bind_ok_iff.1 h12
  clear h12
  rcases koopsFunction_first A h h13 with e | hF
  · rw [e]; exact .inl rfl
  cases f with
  | none =>
    cases h14
    obtain ⟨m', x, s, e, hb, rfl⟩ := hF
    rw [e, bind_ok]
    exact quiet_fail hb
  | some r =>
  obtain ⟨f, u6⟩ := r
  obtain ⟨m', e, hb⟩ := hF
  rw [e, bind_ok]
  dsimp only at h14 ⊢
  obtain ⟨u7, h15, h16⟩ := bind_ok_iff.1 h14
  clear h14
  rw [h15, bind_ok]
  obtain ⟨u8, h17, h18⟩ := bind_ok_iff.1 h16
  clear h16
  rw [h17, bind_ok]
  obtain ⟨e', h19, h20⟩ := bind_ok_iff.1 h18
  cases h20
  rw [h19, bind_ok]
  cases e' with
  | none => exact quiet_fail hb
  | some rest =>
    dsimp only
    obtain ⟨m₃, e, hb⟩ := storeData_spec hb (koopsData a ((skipString u7 c!"(unreliable)").1 == 0) f.offset f.length 0 0 0) none
    rw [e, bind_ok]
    exact .inr ⟨m₃, rfl, hb⟩

theorem koopsArmFrom_spec (A : Allocator) {j m₀ m p a rel name} (h : Built .koopsFrame j m₀ m p { texts := [name, none, none, none, none] })
    {inp v} (hv : Koops.armFrom (Koops.frameOf a rel ⟨name, 0, 0, none⟩) inp = .ok v) :
    Fills .koopsFrame j m₀ p none (quiet (v.map fun r => (r.2, koopsFramePart r.1))) (koopsArmFrom A p a rel inp ⟨m, none⟩) := by
  unfold koopsArmFrom
  unfold Koops.armFrom at hv
  obtain ⟨u, h1, h2⟩ := bind_ok_iff.1 hv
  clear hv
  rw [h1, bind_ok]
  by_cases hc : (skipString u c!"from").1 = 0
  · rw [if_pos hc] at h2 ⊢
    cases h2
    exact quiet_fail h
  rw [if_neg hc] at h2 ⊢
  obtain ⟨u2, h3, h4⟩ := bind_ok_iff.1 h2
  clear h2
  rw [h3, bind_ok]
  obtain ⟨⟨fa, o⟩, h7, h8⟩ := bind_ok_iff.1 h4
  clear h4
  rw [h7, bind_ok]
  cases o with
  | none => cases h8; exact quiet_fail h
  | some u3 =>
  dsimp only at h8 ⊢
  obtain ⟨u4, h9, h10⟩ := bind_ok_iff.1 h8
  clear h8
  rw [h9, bind_ok]
  obtain ⟨f, h13, h14⟩ := bind_ok_iff.1 h10
  cases h14
  rcases koopsFunction_second A h h13 with e | hF
  · rw [e]; exact .inl rfl
  cases f with
  | none =>
    obtain ⟨m', x, s, e, hb, rfl⟩ := hF
    rw [e, bind_ok]
    exact quiet_fail hb
  | some r =>
    obtain ⟨m', e, hb⟩ := hF
    rw [e, bind_ok]
    dsimp only
    obtain ⟨m₃, e, hb⟩ := storeData_spec hb (koopsData a rel 0 0 fa r.1.offset r.1.length) none
    rw [e, bind_ok]
    exact .inr ⟨m₃, rfl, hb⟩

theorem koopsArm_spec (A : Allocator) {m inp v} (hv : Koops.parseArm inp = .ok v) :
    Makes .koopsFrame m none (quiet (v.map fun r => (r.2, koopsFramePart r.1))) (koopsArm A inp ⟨m, none⟩) := by
  unfold koopsArm
  unfold Koops.parseArm at hv
  obtain ⟨u, h1, h2⟩ := bind_ok_iff.1 hv
  clear hv
  rw [h1, bind_ok]
  rcases new_spec A .koopsFrame .null m with e | ⟨p, m₁, e, h⟩
  · rw [e]; exact .inl rfl
  rw [e, bind_ok]
  refine endFrame_spec (by decide) ?_
  unfold koopsArmMembers
  obtain ⟨⟨a, o⟩, h3, h4⟩ := bind_ok_iff.1 h2
  clear h2
  rw [h3, bind_ok]
  cases o with
  | none => cases h4; exact quiet_fail h
  | some u1 =>
  dsimp only at h4 ⊢
  obtain ⟨u2, h5, h6⟩ := bind_ok_iff.1 h4
  clear h4
  rw [h5, bind_ok]
  obtain ⟨⟨q, u3⟩, h7, h8⟩ := bind_ok_iff.1 h6
  clear h6
  rw [h7, bind_ok]
  dsimp only at h8 ⊢
  obtain ⟨u4, h9, h10⟩ := bind_ok_iff.1 h8
  clear h8
  rw [h9, bind_ok]
  obtain ⟨⟨ok, u5⟩, h11, h12⟩ := bind_ok_iff.1 h10
  clear h10
  rw [h11, bind_ok]
  dsimp only at h12 ⊢
  cases ok with
  | false => cases h12; exact quiet_fail h
  | true =>
  rw [if_neg (by simp)] at h12 ⊢
  obtain ⟨⟨o, u6⟩, h13, h14⟩ := bind_ok_iff.1 h12
  clear h12
  rcases parseMember_spec A h .functionName u5 c!" \t\n)+<" none rfl h13 with e | hm
  · rw [e]; exact .inl rfl
  cases o with
  | none =>
    cases h14
    dsimp only at hm
    rw [hm, bind_ok]
    exact quiet_fail h
  | some name =>
  obtain ⟨m', e, hb⟩ := hm
  rw [e, bind_ok]
  dsimp only at h14 ⊢
  rw [if_neg (by simp)]
  obtain ⟨⟨ok, u7⟩, h15, h16⟩ := bind_ok_iff.1 h14
  clear h14
  rw [h15, bind_ok]
  dsimp only at h16 ⊢
  cases ok with
  | false => cases h16; exact quiet_fail hb
  | true =>
    rw [if_neg (by simp)] at h16 ⊢
    exact koopsArmFrom_spec A hb h16

theorem koopsFrom_spec (A : Allocator) {j m₀ m p a b} (h : Built .koopsFrame j m₀ m p { texts := [a, b, none, none, none] }) {inp v}
    (hv : Koops.generalFrom inp = .ok v) :
    Fills .koopsFrame j m₀ p none
      (quiet (v.map fun r => (((r.1, r.2.1.offset, r.2.1.length), r.2.2), { texts := [a, b, r.2.1.name, r.2.1.module, none] })))
      (koopsFrom A p inp ⟨m, none⟩) := by
  unfold koopsFrom
  unfold Koops.generalFrom at hv
  by_cases hc : (skipString inp c!"from").1 = 0
  · rw [if_pos hc] at hv ⊢
    cases hv
    exact .inr ⟨m, rfl, h⟩
  rw [if_neg hc] at hv ⊢
  obtain ⟨u2, h3, h4⟩ := bind_ok_iff.1 hv
  clear hv
  rw [h3, bind_ok]
  obtain ⟨⟨fa, o⟩, h7, h8⟩ := bind_ok_iff.1 h4
  clear h4
  rw [h7, bind_ok]
  cases o with
  | none => cases h8; exact quiet_fail h
  | some u3 =>
  dsimp only at h8 ⊢
  obtain ⟨u4, h9, h10⟩ := bind_ok_iff.1 h8
  clear h8
  rw [h9, bind_ok]
  obtain ⟨f, h13, h14⟩ := bind_ok_iff.1 h10
  clear h10
  rcases koopsFunction_second A h h13 with e | hF
  · rw [e]; exact .inl rfl
  cases f with
  | none =>
    cases h14
    obtain ⟨m', x, s, e, hb, rfl⟩ := hF
    rw [e, bind_ok]
    exact quiet_fail hb
  | some r =>
    obtain ⟨f, u5⟩ := r
    obtain ⟨m', e, hb⟩ := hF
    rw [e, bind_ok]
    dsimp only at h14 ⊢
    obtain ⟨u6, h15, h16⟩ := bind_ok_iff.1 h14
    cases h16
    rw [h15, bind_ok]
    exact .inr ⟨m', rfl, hb⟩

theorem koopsLate_spec (A : Allocator) {j m₀ m p a b c d} (h : Built .koopsFrame j m₀ m p { texts := [a, b, c, d, none] }) {inp o rest}
    (hv : Koops.lateModule b inp = .ok (o, rest)) :
    koopsLate A p inp ⟨m, none⟩ = .abort ∨
    ∃ m', koopsLate A p inp ⟨m, none⟩ = .ok (rest, ⟨m', none⟩) ∧ Built .koopsFrame j m₀ m' p { texts := [a, o, c, d, none] } := by
  unfold koopsLate
  unfold Koops.lateModule at hv
  obtain ⟨r, hr, hz⟩ : ∃ r, m p = some (.record r) ∧ (r.texts.getD ((texts .koopsFrame).idxOf .moduleName) 0 = 0 ↔ b = none) := by
    obtain ⟨_, r, fs, fa, fb, fc, fe, h0, h1, h2, h3, h4, _⟩ := h
    refine ⟨r, h1, ?_⟩
    cases b with
    | none => exact ⟨fun _ => rfl, fun _ => h4.zero rfl⟩
    | some str => exact ⟨fun e => absurd e (h4.item (i := (texts .koopsFrame).idxOf .moduleName) rfl).1, fun e => by cases e⟩
  simp only [readRecord, hr, bind_ok]
  cases b with
  | some str =>
    cases hv
    rw [if_pos (fun e => by cases hz.1 e)]
    exact .inr ⟨m, rfl, h⟩
  | none =>
    rw [if_neg (fun e => e (hz.2 rfl))]
    rw [if_neg (by simp)] at hv
    obtain ⟨⟨o', u⟩, h1, h2⟩ := bind_ok_iff.1 hv
    clear hv
    unfold Koops.optModule at h1
    obtain ⟨vm, h3, h4⟩ := bind_ok_iff.1 h1
    clear h1
    rcases koopsModule_spec A h .moduleName rfl h3 with e | ⟨m', e, hb⟩
    · rw [e]; exact .inl rfl
    rw [e, bind_ok]
    cases vm with
    | none =>
      cases h4
      cases h2
      exact .inr ⟨m', rfl, hb⟩
    | some r =>
      cases h4
      dsimp only at h2 ⊢
      rw [if_pos (by simp)] at h2
      obtain ⟨u', h5, h6⟩ := bind_ok_iff.1 h2
      cases h6
      rw [Option.map_some]
      dsimp only
      rw [h5, bind_ok]
      exact .inr ⟨m', rfl, hb⟩

theorem koopsBody_spec (A : Allocator) {j m₀ m p} (h : Built .koopsFrame j m₀ m p { texts := [none, none, none, none, none] }) {par a inp v}
    (hv : Koops.generalBody par a inp = .ok v) :
    Fills .koopsFrame j m₀ p none (quiet (v.map fun r => (r.2, koopsFramePart r.1))) (koopsBody A p par a inp ⟨m, none⟩) := by
  unfold koopsBody
  unfold Koops.generalBody at hv
  obtain ⟨u, h1, h2⟩ := bind_ok_iff.1 hv
  clear hv
  rw [h1, bind_ok]
  obtain ⟨⟨q, u1⟩, h3, h4⟩ := bind_ok_iff.1 h2
  clear h2
  rw [h3, bind_ok]
  dsimp only at h4 ⊢
  obtain ⟨u2, h5, h6⟩ := bind_ok_iff.1 h4
  clear h4
  rw [h5, bind_ok]
  obtain ⟨f, h13, h14⟩ := bind_ok_iff.1 h6
  clear h6
  rcases koopsFunction_first A h h13 with e | hF
  · rw [e]; exact .inl rfl
  cases f with
  | none =>
    cases h14
    obtain ⟨m', x, s, e, hb, rfl⟩ := hF
    rw [e, bind_ok]
    exact quiet_fail hb
  | some r =>
  obtain ⟨f, u6⟩ := r
  obtain ⟨m', e, hb⟩ := hF
  rw [e, bind_ok]
  dsimp only at h14 ⊢
  obtain ⟨u7, h15, h16⟩ := bind_ok_iff.1 h14
  clear h14
  rw [h15, bind_ok]
  obtain ⟨c, h17, h18⟩ := bind_ok_iff.1 h16
  clear h16
  rcases koopsFrom_spec A hb h17 with e | hF
  · rw [e]; exact .inl rfl
  cases c with
  | none =>
    cases h18
    obtain ⟨m', x, s, e, hb, rfl⟩ := hF
    rw [e, bind_ok]
    exact quiet_fail hb
  | some r =>
  obtain ⟨fa, ff, u8⟩ := r
  obtain ⟨m'', e, hb'⟩ := hF
  rw [e, bind_ok]
  dsimp only at h18 ⊢
  obtain ⟨⟨om, u9⟩, h19, h20⟩ := bind_ok_iff.1 h18
  clear h18
  rcases koopsLate_spec A hb' h19 with e | ⟨m₃, e, hb₃⟩
  · rw [e]; exact .inl rfl
  rw [e, bind_ok]
  dsimp only at h20 ⊢
  obtain ⟨e', h21, h22⟩ := bind_ok_iff.1 h20
  cases h22
  rw [h21, bind_ok]
  cases e' with
  | none => exact quiet_fail hb₃
  | some rest =>
    dsimp only
    obtain ⟨m₄, e, hb⟩ := storeData_spec hb₃ (koopsData a (!q) f.offset f.length fa ff.offset ff.length) none
    rw [e, bind_ok]
    exact .inr ⟨m₄, rfl, hb⟩

theorem koopsGeneral_spec (A : Allocator) {m inp v} (hv : Koops.parseGeneral inp = .ok v) :
    Makes .koopsFrame m none (quiet (v.map fun r => (r.2, koopsFramePart r.1))) (koopsGeneral A inp ⟨m, none⟩) := by
  unfold koopsGeneral
  unfold Koops.parseGeneral at hv
  obtain ⟨u, h1, h2⟩ := bind_ok_iff.1 hv
  clear hv
  rw [h1, bind_ok]
  rcases new_spec A .koopsFrame .null m with e | ⟨p, m₁, e, h⟩
  · rw [e]; exact .inl rfl
  rw [e, bind_ok]
  refine endFrame_spec (by decide) ?_
  unfold koopsMembers
  obtain ⟨⟨par, u1⟩, h3, h4⟩ := bind_ok_iff.1 h2
  clear h2
  rw [h3, bind_ok]
  dsimp only at h4 ⊢
  obtain ⟨⟨a, o⟩, h5, h6⟩ := bind_ok_iff.1 h4
  clear h4
  rw [h5, bind_ok]
  cases o with
  | some u2 => exact koopsBody_spec A h h6
  | none =>
  dsimp only at h6 ⊢
  obtain ⟨⟨n, x, u3⟩, h7, h8⟩ := bind_ok_iff.1 h6
  clear h6
  rw [h7, bind_ok]
  dsimp only at h8 ⊢
  by_cases hn : n ≠ 0
  · rw [if_pos hn] at h8 ⊢
    obtain ⟨e', h9, h10⟩ := bind_ok_iff.1 h8
    cases h10
    rw [h9, bind_ok]
    cases e' with
    | none => exact quiet_fail h
    | some rest =>
      dsimp only
      obtain ⟨m₄, e, hb⟩ := storeData_spec h (koopsData (x.getD 0) false 0 0 0 0 0) none
      rw [e, bind_ok]
      exact .inr ⟨m₄, rfl, hb⟩
  · rw [if_neg hn] at h8 ⊢
    exact koopsBody_spec A h h8

/-- A frame, or the memory as it was. -/
def FrameMade (m : Mem) (v : Option (KoopsFrame × Str)) (o : Out (Ptr × Str × State)) : Prop :=
  Makes .koopsFrame m none (quiet (v.map fun r => (r.2, koopsFramePart r.1))) o

theorem frameMade_none {m o} (h : FrameMade m none o) : o = .abort ∨ ∃ rest, o = .ok (0, rest, ⟨m, none⟩) := by
  rcases h with e | ⟨rest, s, e, hs⟩
  · exact .inl e
  · cases hs; exact .inr ⟨rest, e⟩

theorem frameMade_some {m f rest o} (h : FrameMade m (some (f, rest)) o) :
    o = .abort ∨ ∃ q m', o = .ok (q, rest, ⟨m', none⟩) ∧ Built .koopsFrame .null m m' q (koopsFramePart f) := h

theorem koopsFrame_spec (A : Allocator) {m inp v} (hv : Koops.parseFrame inp = .ok v) : FrameMade m v (koopsFrame A inp ⟨m, none⟩) := by
  unfold koopsFrame
  unfold Koops.parseFrame at hv
  obtain ⟨v1, h1, h2⟩ := bind_ok_iff.1 hv
  clear hv
  have hp : FrameMade m v1 (koopsPpc A inp ⟨m, none⟩) := koopsPpc_spec A h1
  cases v1 with
  | some r =>
    cases h2
    rcases frameMade_some hp with e | ⟨q, m', e, hb⟩
    · rw [e]; exact .inl rfl
    · rw [e, bind_ok]
      dsimp only
      rw [if_pos hb.ne]
      exact .inr ⟨q, m', rfl, hb⟩
  | none =>
    rcases frameMade_none hp with e | ⟨rest, e⟩
    · rw [e]; exact .inl rfl
    rw [e, bind_ok]
    dsimp only at h2 ⊢
    rw [if_neg (by simp)]
    obtain ⟨v2, h3, h4⟩ := bind_ok_iff.1 h2
    clear h2
    have ha : FrameMade m v2 (koopsArm A inp ⟨m, none⟩) := koopsArm_spec A h3
    cases v2 with
    | some r =>
      cases h4
      rcases frameMade_some ha with e | ⟨q, m', e, hb⟩
      · rw [e]; exact .inl rfl
      · rw [e, bind_ok]
        dsimp only
        rw [if_pos hb.ne]
        exact .inr ⟨q, m', rfl, hb⟩
    | none =>
      rcases frameMade_none ha with e | ⟨rest, e⟩
      · rw [e]; exact .inl rfl
      rw [e, bind_ok]
      dsimp only at h4 ⊢
      rw [if_neg (by simp)]
      exact koopsGeneral_spec A h4

theorem koopsRip_spec (A : Allocator) {m inp v} (hv : Koops.ripFrame inp = .ok v) : FrameMade m v (koopsRip A inp ⟨m, none⟩) := by
  unfold koopsRip
  unfold Koops.ripFrame at hv
  obtain ⟨⟨n, u⟩, h1, h2⟩ := bind_ok_iff.1 hv
  clear hv
  rw [h1, bind_ok]
  dsimp only at h2 ⊢
  by_cases hn : n = 0
  · rw [if_pos hn] at h2 ⊢; cases h2; exact .inr ⟨[], _, rfl, rfl⟩
  rw [if_neg hn] at h2 ⊢
  obtain ⟨⟨n, u⟩, h3, h4⟩ := bind_ok_iff.1 h2
  clear h2
  rw [h3, bind_ok]
  dsimp only at h4 ⊢
  by_cases hn : n = 0
  · rw [if_pos hn] at h4 ⊢; cases h4; exact .inr ⟨[], _, rfl, rfl⟩
  rw [if_neg hn] at h4 ⊢
  obtain ⟨⟨n, u⟩, h5, h6⟩ := bind_ok_iff.1 h4
  clear h4
  rw [h5, bind_ok]
  dsimp only at h6 ⊢
  by_cases hn : n = 0
  · rw [if_pos hn] at h6 ⊢; cases h6; exact .inr ⟨[], _, rfl, rfl⟩
  rw [if_neg hn] at h6 ⊢
  exact koopsFrame_spec A h6

theorem koopsEip_spec (A : Allocator) {m inp v} (hv : Koops.eipFrame inp = .ok v) : FrameMade m v (koopsEip A inp ⟨m, none⟩) := by
  unfold koopsEip
  unfold Koops.eipFrame at hv
  obtain ⟨⟨n, u⟩, h1, h2⟩ := bind_ok_iff.1 hv
  clear hv
  rw [h1, bind_ok]
  dsimp only at h2 ⊢
  by_cases hn : n = 0
  · rw [if_pos hn] at h2 ⊢; cases h2; exact .inr ⟨[], _, rfl, rfl⟩
  rw [if_neg hn] at h2 ⊢
  rcases new_spec A .koopsFrame .null m with e | ⟨p, m₁, e, h⟩
  · rw [e]; exact .inl rfl
  rw [e, bind_ok]
  refine endFrame_spec (by decide) ?_
  unfold koopsEipMembers
  obtain ⟨⟨a, o⟩, h3, h4⟩ := bind_ok_iff.1 h2
  clear h2
  rw [h3, bind_ok]
  cases o with
  | none => cases h4; exact quiet_fail h
  | some u1 =>
  dsimp only at h4 ⊢
  obtain ⟨u2, h5, h6⟩ := bind_ok_iff.1 h4
  clear h4
  rw [h5, bind_ok]
  obtain ⟨⟨q, u3⟩, h7, h8⟩ := bind_ok_iff.1 h6
  clear h6
  rw [h7, bind_ok]
  dsimp only at h8 ⊢
  obtain ⟨u4, h9, h10⟩ := bind_ok_iff.1 h8
  clear h8
  rw [h9, bind_ok]
  obtain ⟨f, h13, h14⟩ := bind_ok_iff.1 h10
  cases h14
  rcases koopsFunction_first A h h13 with e | hF
  · rw [e]; exact .inl rfl
  cases f with
  | none =>
    obtain ⟨m', x, s, e, hb, rfl⟩ := hF
    rw [e, bind_ok]
    exact quiet_fail hb
  | some r =>
    obtain ⟨m', e, hb⟩ := hF
    rw [e, bind_ok]
    dsimp only
    obtain ⟨m₃, e, hb⟩ := storeData_spec hb (koopsData a (!q) r.1.offset r.1.length 0 0 0) none
    rw [e, bind_ok]
    exact .inr ⟨m₃, rfl, hb⟩

theorem koopsIp_spec (A : Allocator) {m inp v} (hv : Koops.parseIp inp = .ok v) : FrameMade m v (koopsIp A inp ⟨m, none⟩) := by
  unfold koopsIp
  unfold Koops.parseIp at hv
  obtain ⟨u, h1, h2⟩ := bind_ok_iff.1 hv
  clear hv
  rw [h1, bind_ok]
  obtain ⟨v1, h3, h4⟩ := bind_ok_iff.1 h2
  clear h2
  have key : FrameMade m v1 (if (skipString u c!"RIP:").1 ≠ 0 then koopsRip A (skipString u c!"RIP:").2 ⟨m, none⟩
      else if (skipString u c!"EIP:").1 ≠ 0 then koopsEip A (skipString u c!"EIP:").2 ⟨m, none⟩ else .ok (0, [], ⟨m, none⟩)) := by
    unfold Koops.ipStart at h3
    by_cases hr : (skipString u c!"RIP:").1 ≠ 0
    · rw [if_pos hr] at h3 ⊢
      exact koopsRip_spec A h3
    rw [if_neg hr] at h3 ⊢
    by_cases he : (skipString u c!"EIP:").1 ≠ 0
    · rw [if_pos he] at h3 ⊢
      exact koopsEip_spec A h3
    rw [if_neg he] at h3 ⊢
    cases h3
    exact .inr ⟨[], _, rfl, rfl⟩
  cases v1 with
  | none =>
    cases h4
    rcases frameMade_none key with e | ⟨rest, e⟩
    · rw [e]; exact .inl rfl
    rw [e, bind_ok]
    exact .inr ⟨[], _, rfl, rfl⟩
  | some r =>
    obtain ⟨f, t⟩ := r
    dsimp only at h4
    obtain ⟨⟨_, t'⟩, h5, h6⟩ := bind_ok_iff.1 h4
    cases h6
    rcases frameMade_some key with e | ⟨q, m', e, hb⟩
    · rw [e]; exact .inl rfl
    rw [e, bind_ok]
    dsimp only
    rw [if_neg hb.ne, h5, bind_ok]
    exact .inr ⟨q, m', rfl, hb⟩

end Satyr.Heap
