import Verif.Heap.TextRuby
/-!
# Reading stack traces from text: memory of JavaScript stack traces
-/
namespace Satyr.Heap
open Satyr.CStr
open Satyr.Text
open Satyr.Frames
open Satyr.Json (Value)

/-- The outcome without a message. -/
def quiet {α : Type} : Option α → Str ⊕ α
  | none => .inl []
  | some x => .inr x

theorem quiet_fail {β : Type} {k j m₀ m p x} (h : Built k j m₀ m p x) : Fills (β := β) k j m₀ p none (.inl []) (.ok (none, ⟨m, none⟩)) :=
  .inr ⟨m, x, _, rfl, h, rfl⟩

theorem jsName_spec (A : Allocator) {j m₀ m p} (h : Built .jsFrame j m₀ m p { texts := [none, none] }) {inp lo cursor v}
    (hv : Js.functionName inp lo cursor = .ok v) :
    Fills .jsFrame j m₀ p none (quiet (v.map fun x => (x.2, { texts := [none, some x.1] }))) (jsName A p inp lo cursor ⟨m, none⟩) := by
  unfold jsName
  unfold Js.functionName at hv
  obtain ⟨⟨n, t⟩, h1, h2⟩ := bind_ok_iff.1 hv
  rw [h1, bind_ok]
  dsimp only at h2 ⊢
  by_cases hc : n = 0 ∨ peek t ≠ ' '
  · rw [if_pos hc] at h2 ⊢
    cases h2
    exact quiet_fail h
  rw [if_neg hc] at h2 ⊢
  rcases storeText_spec A h .functionName (strndup (inp.drop lo) n) none rfl with e | ⟨m', e, hb⟩
  · rw [e]; exact .inl rfl
  rw [e, bind_ok]
  obtain ⟨⟨n', t'⟩, h3, h4⟩ := bind_ok_iff.1 h2
  rw [h3, bind_ok]
  dsimp only at h4 ⊢
  by_cases hc' : n' = 0 ∨ peek t' ≠ '('
  · rw [if_pos hc'] at h4 ⊢
    cases h4
    exact quiet_fail hb
  rw [if_neg hc'] at h4 ⊢
  cases h4
  exact .inr ⟨m', rfl, hb⟩

theorem jsFinish_spec (A : Allocator) {j m₀ m p} {name : Option Str} (h : Built .jsFrame j m₀ m p { texts := [none, name] }) {inp lo cursor v}
    (hv : Js.finish inp name lo cursor = .ok v) :
    Fills .jsFrame j m₀ p none (quiet (v.map fun x => (x.2, jsFramePart x.1))) (jsFinish A p inp lo cursor ⟨m, none⟩) := by
  unfold jsFinish
  unfold Js.finish at hv
  obtain ⟨pos, h1, h2⟩ := bind_ok_iff.1 hv
  clear hv
  unfold Js.position at h1
  obtain ⟨token, h3, h4⟩ := bind_ok_iff.1 h1
  clear h1
  rw [h3, bind_ok]
  cases token with
  | none => cases h4; cases h2; exact quiet_fail h
  | some token =>
    dsimp only at h4 ⊢
    by_cases ht : token = lo
    · rw [if_pos ht] at h4 ⊢
      cases h4; cases h2; exact quiet_fail h
    rw [if_neg ht] at h4 ⊢
    obtain ⟨⟨_, column, _⟩, h5, h6⟩ := bind_ok_iff.1 h4
    rw [h5, bind_ok]
    cases column with
    | none => cases h6; cases h2; exact quiet_fail h
    | some column =>
      dsimp only at h6 ⊢
      obtain ⟨token', h7, h8⟩ := bind_ok_iff.1 h6
      rw [h7, bind_ok]
      cases token' with
      | none => cases h8; cases h2; exact quiet_fail h
      | some token' =>
        dsimp only at h8 ⊢
        by_cases ht : token' = lo
        · rw [if_pos ht] at h8 ⊢
          cases h8; cases h2; exact quiet_fail h
        rw [if_neg ht] at h8 ⊢
        obtain ⟨⟨_, line, _⟩, h9, h10⟩ := bind_ok_iff.1 h8
        rw [h9, bind_ok]
        cases line with
        | none => cases h10; cases h2; exact quiet_fail h
        | some line =>
          dsimp only at h10 ⊢
          obtain ⟨file, h11, h12⟩ := bind_ok_iff.1 h10
          cases h12
          obtain ⟨⟨_, rest⟩, h13, h14⟩ := bind_ok_iff.1 h2
          cases h14
          rw [h11, bind_ok]
          rcases storeText_spec A h .fileName file none rfl with e | ⟨m', e, hb⟩
          · rw [e]; exact .inl rfl
          rw [e, bind_ok]
          rcases anonymizeMember_spec A hb .fileName file none rfl with e | ⟨m₂, e, hb⟩
          · rw [e]; exact .inl rfl
          rw [e, bind_ok, h13, bind_ok]
          obtain ⟨m₃, e, hb⟩ := storeData_spec hb [(line : Int), (column : Int)] none
          dsimp only
          rw [e, bind_ok]
          exact .inr ⟨m₃, rfl, hb⟩

theorem jsFrame_spec (A : Allocator) {m inp v} (hv : Js.parseFrame inp = .ok v) :
    Makes .jsFrame m none (quiet (v.map fun x => (x.2, jsFramePart x.1))) (jsFrame A inp ⟨m, none⟩) := by
  unfold jsFrame
  unfold Js.parseFrame at hv
  obtain ⟨⟨n1, t⟩, h1, h2⟩ := bind_ok_iff.1 hv
  clear hv
  rw [h1, bind_ok]
  generalize hr : skipString t c!"at " = r at *
  obtain ⟨n2, t'⟩ := r
  dsimp only at h2 ⊢
  rw [hr] at h2 ⊢
  dsimp only at h2 ⊢
  by_cases hn : n2 = 0
  · rw [if_pos hn] at h2 ⊢
    cases h2
    exact .inr ⟨[], _, rfl, rfl⟩
  rw [if_neg hn] at h2 ⊢
  obtain ⟨⟨n3, t''⟩, h3, h4⟩ := bind_ok_iff.1 h2
  clear h2
  rw [h3, bind_ok]
  dsimp only at h4 ⊢
  unfold Js.parseAt at h4
  obtain ⟨cursor, h5, h6⟩ := bind_ok_iff.1 h4
  rw [h5, bind_ok]
  rcases new_spec A .jsFrame .null m with e | ⟨p, m', e, hb⟩
  · rw [e]; exact .inl rfl
  rw [e, bind_ok]
  dsimp only
  obtain ⟨ch, h7, h8⟩ := bind_ok_iff.1 h6
  rw [h7, bind_ok]
  by_cases hc : ch = ')'
  · rw [if_pos hc] at h8 ⊢
    obtain ⟨fn, h9, h10⟩ := bind_ok_iff.1 h8
    rcases jsName_spec A hb h9 with e | hf
    · rw [e]; exact .inl rfl
    cases fn with
    | none =>
      cases h10
      obtain ⟨m₂, x, s, e, hb2, hs⟩ := hf
      rw [e, bind_ok]
      exact endFrame_spec (o := .ok (none, s)) (v := .inl []) (by decide) (.inr ⟨m₂, x, s, rfl, hb2, hs⟩)
    | some fn =>
      obtain ⟨name, lo, cursor'⟩ := fn
      obtain ⟨m₂, e, hb2⟩ := hf
      rw [e, bind_ok]
      exact endFrame_spec (by decide) (jsFinish_spec A hb2 h10)
  · rw [if_neg hc] at h8 ⊢
    exact endFrame_spec (by decide) (jsFinish_spec A hb h8)

/-- The stack trace while it is read. -/
def jsSoFar (name : Option Str) (frames : List JsFrame) : Part :=
  { texts := [name], a := chainsOf (frames.map fun f => (jsFramePart f).chain .jsFrame 0) }

theorem size_jsSoFar (name : Option Str) (frames : List JsFrame) : (jsSoFar name frames).a.size = frames.length :=
  size_chains (fun f => (jsFramePart f).chain .jsFrame 0) (fun _ => rfl) frames

theorem length_jsSoFar (name : Option Str) (frames : List JsFrame) : (jsSoFar name frames).a.length = frames.length := by
  unfold jsSoFar
  induction frames with
  | nil => rfl
  | cons f l ih =>
    dsimp only at ih ⊢
    rw [List.map_cons, chainsOf, length_append, ih, List.length_cons]
    show 1 + _ = _
    omega

theorem jsFrames_spec (A : Allocator) {j m₀ p} {name : Option Str} : ∀ (fuel : Nat) (inp : Str)
    (acc : List JsFrame) (last : Ptr) (m : Mem) {v}, Built .jsTrace j m₀ m p (jsSoFar name acc) →
    (acc ≠ [] → Ends m p (acc.length - 1) last) → acc.length + fuel < weight j → Js.framesLoop fuel inp acc = .ok v →
    Fills .jsTrace j m₀ p none (quiet (v.map fun x => (x.2, jsSoFar name x.1))) (jsFrames A p fuel last inp ⟨m, none⟩)
  | 0, _, _, _, _, _, _, _, _, hv => by cases hv
  | fuel + 1, inp, acc, last, m, v, h, hlast, hsz, hv => by
    rw [Js.framesLoop] at hv
    rw [jsFrames]
    by_cases hp : peek inp = '\x00'
    · rw [if_pos hp] at hv ⊢
      cases hv
      exact .inr ⟨m, rfl, h⟩
    rw [if_neg hp] at hv ⊢
    obtain ⟨v1, h1, h2⟩ := bind_ok_iff.1 hv
    clear hv
    rcases jsFrame_spec A (m := m) h1 with e | hf
    · rw [e]; exact .inl rfl
    cases v1 with
    | none =>
      cases h2
      obtain ⟨rest, s, e, hs⟩ := hf
      have hs : s = ⟨m, none⟩ := hs
      subst hs
      rw [e, bind_ok]
      dsimp only
      rw [if_pos rfl]
      exact quiet_fail h
    | some v1 =>
      obtain ⟨f, t⟩ := v1
      dsimp only at h2
      obtain ⟨q, m', e, hb⟩ := hf
      rw [e, bind_ok]
      dsimp only
      rw [if_neg hb.ne]
      obtain ⟨m₂, e1, hb2, he2, _⟩ := attach_spec (s := .frames) (l := [.jsFrame]) (last := last) h rfl hb rfl (by
        rw [size_jsSoFar]; show 1 + _ < _; omega) rfl rfl (by simp [Part.chain, Chain.Typed, jsFramePart, texts, slots, MemberOk])
        (fun hn => by rw [length_jsSoFar]; exact hlast (fun e => hn (by rw [e]; rfl)))
      rw [e1, bind_ok]
      have hb3 : Built .jsTrace j m₀ m₂ p (jsSoFar name (acc ++ [f])) := by
        refine Eq.mp ?_ hb2
        congr 1
        simp only [jsSoFar, List.map_append, chainsOf_append, List.map_cons, List.map_nil, chainsOf, append_nil]
      obtain ⟨⟨nl, t''⟩, h3, h4⟩ := bind_ok_iff.1 h2
      rw [h3, bind_ok]
      dsimp only at h4 ⊢
      by_cases hc : nl = false ∧ peek t'' ≠ '\x00'
      · rw [if_pos hc] at h4 ⊢
        cases h4
        exact quiet_fail hb3
      rw [if_neg hc] at h4 ⊢
      exact jsFrames_spec A fuel _ _ q m₂ hb3 (fun _ => by
        rw [length_jsSoFar] at he2
        simpa using he2) (by simp; omega) h4

theorem skipString_length (s a : Str) : (skipString s a).2.length ≤ s.length := by
  rcases skipString_cases s a with ⟨b, hs, hb⟩ | hb
  · rw [hb, hs]; simp
  · rw [hb]

theorem jsTrace_spec (A : Allocator) {inp v} (m : Mem) (c : Message) (hv : Js.parseTrace inp = .ok v) :
    jsTrace A inp m c = .abort ∨ match (generalizing := false) v with
    | none => jsTrace A inp m c = .ok (0, [], m, .constant c!"The stacktrace does not match any JavaScript dialect")
    | some (t, rest) => ∃ p m' f, jsTrace A inp m c = .ok (p, rest, m', c) ∧ Holds m' ((jsTracePart t).chain .jsTrace 0) true p f ∧ Adds m m' f := by
  unfold jsTrace
  rcases new_spec A .jsTrace (sized (inp.length + 1)) m with e | ⟨p, m', e, hb⟩
  · rw [e]; exact .inl rfl
  rw [e, bind_ok]
  dsimp only
  have hroom : room (sized (inp.length + 1)) ≤ 8 * inp.length + 40 := by rw [room, weight_sized]; omega
  have hbody : Fills .jsTrace (sized (inp.length + 1)) m p none (quiet (v.map fun x => (x.2, jsSoFar x.1.exceptionName x.1.frames)))
      (jsBody A p inp ⟨m', none⟩) ∧ ∀ x, v = some x → x.1.platform = (0 <<< 4) ||| 1 := by
    unfold jsBody
    unfold Js.parseTrace at hv
    obtain ⟨⟨name, t⟩, h1, h2⟩ := bind_ok_iff.1 hv
    have hl : t.length ≤ inp.length := by
      obtain ⟨r, e, hr⟩ := parseCharCspan_yields inp c!":\n"
      rw [h1] at e
      cases e
      exact hr
    clear hv
    have habort : ∀ {o : Out (Option Str × State)}, o = .abort → Fills .jsTrace (sized (inp.length + 1)) m p none
        (quiet (v.map fun x => (x.2, jsSoFar x.1.exceptionName x.1.frames))) o := fun h => .inl h
    dsimp only at h2
    have hplat : ∀ x, v = some x → x.1.platform = (0 <<< 4) ||| 1 := by
      rintro x rfl
      split at h2
      · cases h2
      split at h2
      · cases h2
      split at h2
      · cases h2
      obtain ⟨⟨found, t', _⟩, h5, h6⟩ := bind_ok_iff.1 h2
      dsimp only at h6
      split at h6
      · cases h6
      obtain ⟨fl, h7, h8⟩ := bind_ok_iff.1 h6
      cases fl with
      | none => cases h8
      | some fl => cases h8; rfl
    refine ⟨?_, hplat⟩
    rcases parseMember_spec A hb .exceptionName inp c!":\n" none rfl h1 with e | e
    · exact habort (by rw [e]; rfl)
    have hm : ∃ m₂ b, parseMember A p .jsTrace .exceptionName inp c!":\n" ⟨m', none⟩ = .ok (b, t, ⟨m₂, none⟩) ∧ (b = false ↔ name = none) ∧
        Built .jsTrace (sized (inp.length + 1)) m m₂ p (jsSoFar name []) := by
      cases name with
      | none => exact ⟨m', false, e, by simp, hb⟩
      | some name => obtain ⟨m₂, e, hb⟩ := e; exact ⟨m₂, true, e, by simp, hb⟩
    obtain ⟨m₂, b, e, hbn, hb2⟩ := hm
    rw [e, bind_ok]
    dsimp only
    by_cases h3 : peek t ≠ ':'
    · rw [if_pos h3] at h2 ⊢; cases h2; exact quiet_fail hb2
    rw [if_neg h3] at h2 ⊢
    by_cases h4 : name = none
    · rw [if_pos h4] at h2; rw [if_pos (hbn.2 h4)]; cases h2; exact quiet_fail hb2
    rw [if_neg h4] at h2; rw [if_neg (fun h => h4 (hbn.1 h))]
    have hl2 := skipString_length t c!": "
    generalize skipString t c!": " = r at *
    obtain ⟨k, t₂⟩ := r
    dsimp only at h2 hl2 ⊢
    by_cases hk : k = 0
    · rw [if_pos hk] at h2 ⊢; cases h2; exact quiet_fail hb2
    rw [if_neg hk] at h2 ⊢
    obtain ⟨⟨found, t₃, _⟩, h5, h6⟩ := bind_ok_iff.1 h2
    have hl3 : t₃.length ≤ t₂.length := by
      obtain ⟨r, e, hr⟩ := skipToNextLine_yields t₂ Loc.init
      rw [h5] at e
      cases e
      exact hr.1
    rw [h5, bind_ok]
    dsimp only at h6 ⊢
    by_cases hfo : found = false
    · rw [if_pos hfo] at h6 ⊢; cases h6; exact quiet_fail hb2
    rw [if_neg hfo] at h6 ⊢
    obtain ⟨fl, h7, h8⟩ := bind_ok_iff.1 h6
    have := jsFrames_spec A (t₃.length + 1) t₃ [] 0 m₂ hb2 (fun h => absurd rfl h) (by rw [weight_sized]; simp; omega) h7
    cases fl with
    | none => cases h8; exact this
    | some fl => cases h8; exact this
  obtain ⟨hbody, hplat⟩ := hbody
  rcases hbody with e | hbody
  · rw [e]; exact .inl rfl
  cases v with
  | none =>
    obtain ⟨m₂, x, s, e, hb2, hs⟩ := hbody
    rw [e, bind_ok]
    dsimp only
    obtain ⟨m₃, e3, hr⟩ := hb2.free (fun h => by cases h) hs false hroom
    rw [e3, bind_ok]
    have hr : (⟨m₃, s.err⟩ : State) = ⟨m, none⟩ := hr
    rw [show m₃ = m from congrArg State.mem hr]
    exact .inr rfl
  | some v =>
    obtain ⟨t, rest⟩ := v
    obtain ⟨m₂, e, hb2⟩ := hbody
    rw [e, bind_ok]
    dsimp only
    obtain ⟨m₃, e3, hb3⟩ := storeData_spec hb2 [(((0 <<< 4) ||| 1 : Nat) : Int)] none
    rw [e3, bind_ok]
    obtain ⟨f, h1, h2⟩ := hb3.whole rfl
    refine .inr ⟨p, m₃, f, rfl, ?_, h2⟩
    have : (jsSoFar t.exceptionName t.frames).add [(((0 <<< 4) ||| 1 : Nat) : Int)] = jsTracePart t := by
      unfold Part.add jsSoFar jsTracePart
      rw [hplat _ rfl]
      rfl
    rw [← this]
    exact h1

end Satyr.Heap
