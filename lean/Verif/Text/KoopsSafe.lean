import Verif.Text.KoopsRead
/-!
# Reading a kernel oops is safe, and the frames stand in the text
-/
namespace Satyr.Text.Koops
open Satyr.CStr Satyr.Frames

/-- The rest of a text. -/
def Rest (s t : Str) : Prop := ∃ u, s = u ++ t

theorem Rest.refl (s : Str) : Rest s s := ⟨[], rfl⟩

theorem Rest.trans {a b c : Str} (h₁ : Rest a b) (h₂ : Rest b c) : Rest a c := by
  obtain ⟨u, rfl⟩ := h₁
  obtain ⟨v, rfl⟩ := h₂
  exact ⟨u ++ v, by rw [List.append_assoc]⟩

theorem Rest.len {a b : Str} (h : Rest a b) : b.length ≤ a.length := by
  obtain ⟨u, rfl⟩ := h
  simp

theorem rest_blanks (s : Str) : Yields (skipBlanks s) (Rest s) := (skipBlanks_yields s).mono fun _ ⟨w, h, _⟩ => ⟨w, h⟩

theorem rest_span (s set : Str) : Yields (skipCharSpan s set) fun r => Rest s r.2 ∧ r.1 + r.2.length = s.length :=
  (span_yields s set).mono fun r ⟨w, h, hl, _⟩ => ⟨⟨w, h⟩, by rw [h, List.length_append, hl]⟩

theorem rest_cspan (s set : Str) : Yields (skipCharCspan s set) fun r => Rest s r.2 ∧ r.1 + r.2.length = s.length :=
  (cspan_yields s set).mono fun r ⟨w, h, hl, _⟩ => ⟨⟨w, h⟩, by rw [h, List.length_append, hl]⟩

theorem rest_char (s : Str) {c : Char} (hc : c ≠ '\x00') : Yields (skipChar s c) fun r => Rest s r.2 ∧ (r.1 = true → r.2.length < s.length) := by
  refine (char_yields s hc).mono fun r hr => ?_
  rcases hr with ⟨_, h⟩ | ⟨h1, h⟩
  · exact ⟨⟨[c], h⟩, fun _ => by rw [h]; simp⟩
  · exact ⟨⟨[], h.symm⟩, fun hx => by rw [h1] at hx; exact Bool.noConfusion hx⟩

theorem char_yields' (s : Str) {c : Char} (hc : c ≠ '\x00') : Yields (skipChar s c) fun r => s = c :: r.2 ∨ (peek s ≠ c ∧ r.2 = s) := by
  by_cases h : ∃ t, s = c :: t
  · obtain ⟨t, rfl⟩ := h
    exact ⟨_, skipChar_cons hc t, .inl rfl⟩
  · refine ⟨_, (C27_char s c hc).2 h, .inr ⟨?_, rfl⟩⟩
    cases s with
    | nil => exact fun h => hc h.symm
    | cons d t => exact fun hd => h ⟨t, by rw [show d = c from hd]⟩

theorem rest_string (s a : Str) : Rest s (skipString s a).2 := by
  rcases skipString_cases s a with ⟨b, hb, h⟩ | h <;> rw [h]
  · exact ⟨a, hb⟩
  · exact Rest.refl s

theorem timestamp_yields (s : Str) : Yields (skipTimestamp s) fun r => Rest s r.2 := by
  unfold skipTimestamp
  refine (rest_char s (by decide)).bind fun a ha => .ite (fun _ => .ok (Rest.refl _)) fun _ => ?_
  refine (rest_span a.2 _).bind fun w hw => (rest_span w.2 _).bind fun n hn => .ite (fun _ => .ok (Rest.refl _)) fun _ => ?_
  refine (rest_char n.2 (by decide)).bind fun d hd => .ite (fun _ => .ok (Rest.refl _)) fun _ => ?_
  refine (rest_span d.2 _).bind fun m hm => .ite (fun _ => .ok (Rest.refl _)) fun _ => ?_
  refine (rest_char m.2 (by decide)).bind fun b hb => .ok ?_
  split
  · exact ha.1.trans (hw.1.trans (hn.1.trans (hd.1.trans (hm.1.trans hb.1))))
  · exact Rest.refl _

/-! ## Modules -/

theorem keywordNumber_yields (k s : Str) : Yields (keywordNumber k s) fun _ => True := by
  unfold keywordNumber
  refine .ite (fun _ => .ok trivial) fun _ => (rest_span _ _).bind fun a _ => .ite (fun _ => .ok trivial) fun _ => ?_
  exact (rest_span _ _).bind fun n _ => .ok trivial

theorem listContinues_yields (s : Str) : Yields (listContinues s) fun _ => True := by
  unfold listContinues
  refine (timestamp_yields s).bind fun t _ => .ite (fun _ => .ok trivial) fun _ => .ite (fun _ => .ok trivial) fun _ => ?_
  refine (keywordNumber_yields _ _).bind fun c _ => .ite (fun _ => .ok trivial) fun _ => ?_
  refine (keywordNumber_yields _ _).bind fun i _ => .ite (fun _ => .ok trivial) fun _ => .ite (fun _ => .ok trivial) fun _ => ?_
  exact (rest_span _ _).bind fun n _ => .ok trivial

theorem storeModule_yields {mods : List Str} {size : Nat} (m : Str) (h : mods.length < size) :
    Yields (storeModule mods size m) fun r => r.1 = mods ++ [m] ∧ r.1.length < r.2 := by
  unfold storeModule
  dsimp only
  by_cases h1 : mods.length + 1 = size
  · rw [if_pos h1, if_pos (by omega)]
    exact .ok ⟨rfl, by simp; omega⟩
  · rw [if_neg h1, if_pos h]
    exact .ok ⟨rfl, by simp; omega⟩

theorem modulesLoop_yields : ∀ (fuel : Nat) (mods : List Str) (size ws : Nat) (s : Str), s.length < fuel → mods.length < size →
    Yields (modulesLoop fuel mods size ws s) fun r => r.1.length < r.2.1 ∧ Rest s r.2.2 := by
  intro fuel
  induction fuel with
  | zero => intro _ _ _ s h; exact absurd h (by omega)
  | succ fuel ih =>
    intro mods size ws s hf hsz
    unfold modulesLoop
    refine (parseCspan_yields s _).bind fun m hm => ?_
    rcases hm with ⟨n, hn, hs, hne, -⟩ | ⟨hn, -⟩
    · rw [hn]
      dsimp only
      refine (storeModule_yields n hsz).bind fun r hr => (rest_span m.2 _).bind fun w hw => ?_
      have hl : m.2.length < s.length := by
        have := List.length_pos_iff.2 hne
        rw [hs, List.length_append]; omega
      refine (ih r.1 r.2 w.1 w.2 (by have := hw.1.len; omega) hr.2).mono fun r hr => ⟨hr.1, ?_⟩
      exact Rest.trans ⟨n, hs⟩ (hw.1.trans hr.2)
    · rw [hn]
      dsimp only
      refine .ite (fun hp => ?_) fun _ => .ok ⟨hsz, Rest.refl _⟩
      obtain ⟨t, rfl⟩ : ∃ t, s = '\n' :: t := by
        cases s with
        | nil => exact absurd hp (by decide)
        | cons c t => exact ⟨t, by rw [show c = '\n' from hp]⟩
      show Yields (listContinues t >>= _) _
      have hst : Rest ('\n' :: t) t := ⟨['\n'], rfl⟩
      have htl : t.length < fuel := by simp at hf; omega
      refine (listContinues_yields t).bind fun c _ => .ite (fun _ => .ok ⟨hsz, Rest.refl _⟩) fun _ => .ite (fun hj => ?_) fun _ => ?_
      · refine (parseCspan_yields t _).bind fun r hr => ?_
        rcases hr with ⟨n, hn, hs, hne, -⟩ | ⟨hn, -⟩
        · rw [hn]
          dsimp only
          refine (rest_span r.2 _).bind fun w hw => ?_
          have hrt : Rest t r.2 := ⟨n, hs⟩
          refine (ih _ size w.1 w.2 (by have := hw.1.len; have := hrt.len; omega) ?_).mono fun r hr => ⟨hr.1, ?_⟩
          · have := List.length_pos_iff.2 hj.2.2
            simp only [List.length_append, List.length_dropLast, List.length_cons, List.length_nil]
            omega
          · exact hst.trans (hrt.trans (hw.1.trans hr.2))
        · rw [hn]
          exact .ok ⟨hsz, hst⟩
      · refine (rest_span t _).bind fun w hw => ?_
        refine (ih mods size w.1 w.2 (by have := hw.1.len; omega) hsz).mono fun r hr => ⟨hr.1, hst.trans (hw.1.trans hr.2)⟩

theorem modules_yields (s : Str) : Yields (parseModules s) fun r =>
    ∀ ms t, r = some (ms, t) → Rest s t ∧ t.length < s.length ∧ ∃ w b, s = w ++ (c!"Modules linked in:" ++ b) ∧ Blank w := by
  unfold parseModules
  refine (skipBlanks_yields s).bind fun t ⟨w, hs, hw⟩ => ?_
  rcases skipString_cases t c!"Modules linked in:" with ⟨b, hb, hk⟩ | hk <;> rw [hk]
  swap
  · rw [if_pos rfl]; exact .ok (by rintro _ _ ⟨⟩)
  rw [if_neg (by simp)]
  refine (rest_span b _).bind fun v hv => (modulesLoop_yields _ [] 20 v.1 v.2 (Nat.lt_succ_self _) (by decide)).bind fun r hr => ?_
  rw [if_pos hr.1]
  refine .ok ?_
  rintro _ _ ⟨⟩
  have hr2 : Rest b r.2.2 := hv.1.trans hr.2
  refine ⟨Rest.trans ⟨w ++ c!"Modules linked in:", ?_⟩ hr2, ?_, w, b, by rw [hs, hb], hw⟩
  · rw [hs, hb, List.append_assoc]
  · have := hr2.len
    rw [hs, hb]
    simp only [List.length_append, List.length_cons]
    omega

/-! ## Frames of the instruction pointer -/

/-- The text of the instruction pointer on i386. -/
inductive EipText : KoopsFrame → Str → Prop
  | mk {a : Nat} {f : Function} {rel : Bool} {w₀ at_ w₁ q w₂ ft : Str} (h₀ : Blank w₀) (ha : AddressText a at_) (h₁ : Blank w₁)
      (hq : Question rel q) (h₂ : Blank w₂) (hf : FunctionText f ft) :
      EipText (frameOf a rel f) (c!"EIP:" ++ (w₀ ++ (at_ ++ (w₁ ++ (q ++ (w₂ ++ ft))))))

/-- A frame stands in the text. -/
def Stands (s : Str) (k : KoopsFrame) : Prop := ∃ a u b, s = a ++ (u ++ b) ∧ (FrameText b k u ∨ EipText k u)

theorem Stands.rest {s t : Str} {k : KoopsFrame} (h : Rest s t) (hk : Stands t k) : Stands s k := by
  obtain ⟨v, rfl⟩ := h
  obtain ⟨a, u, b, rfl, hk⟩ := hk
  exact ⟨v ++ a, u, b, by rw [List.append_assoc], hk⟩

theorem FrameText.ne {rest u : Str} {k : KoopsFrame} (h : FrameText rest k u) : u ≠ [] := by
  have hf : ∀ {f t}, FunctionText f t → t ≠ [] := by
    rintro f t (h | h)
    · cases h <;> simp
    · simp
  cases h with
  | ppc _ hs => simp [hs.ne]
  | arm _ hs => simp [hs.ne]
  | plain _ _ _ _ _ h => simp [hf h]
  | paren => simp
  | address => simp

theorem ip_yields (s : Str) : Yields (parseIp s) fun r => ∀ k t, r = some (k, t) → Rest s t ∧ t.length < s.length ∧ Stands s k ∧
    ∃ w b, (s = w ++ (c!"RIP:" ++ b) ∨ s = w ++ (c!"EIP:" ++ b)) ∧ Blank w := by
  unfold parseIp
  refine (skipBlanks_yields s).bind fun s0 ⟨w, hs, hw⟩ => ?_
  have hr0 : Rest s s0 := ⟨w, hs⟩
  refine Yields.bind (P := fun r => ∀ k t, r = some (k, t) → Rest s0 t ∧ t.length < s0.length ∧ Stands s0 k ∧
    ∃ b, s0 = c!"RIP:" ++ b ∨ s0 = c!"EIP:" ++ b) ?_ ?_
  · unfold ipStart
    rcases skipString_cases s0 c!"RIP:" with ⟨b, hb, hk⟩ | hk <;> rw [hk]
    · rw [if_pos (by simp)]
      unfold ripFrame
      refine (rest_span b _).bind fun w1 h1 => .ite (fun _ => .ok (by rintro _ _ ⟨⟩)) fun _ => ?_
      refine (rest_cspan w1.2 _).bind fun w2 h2 => .ite (fun _ => .ok (by rintro _ _ ⟨⟩)) fun _ => ?_
      refine (rest_span w2.2 _).bind fun w3 h3 => .ite (fun _ => .ok (by rintro _ _ ⟨⟩)) fun _ => ?_
      refine (frame_yields w3.2).mono fun r hr k t hkt => ?_
      obtain ⟨u, hu, hf⟩ := hr k t hkt
      have hr3 : Rest s0 w3.2 := Rest.trans ⟨_, hb⟩ (h1.1.trans (h2.1.trans h3.1))
      refine ⟨hr3.trans ⟨u, hu⟩, ?_, Stands.rest hr3 ⟨[], u, t, hu, .inl hf⟩, b, .inl hb⟩
      have := List.length_pos_iff.2 hf.ne
      have := hr3.len
      have : w3.2.length = u.length + t.length := by rw [hu, List.length_append]
      omega
    · rw [if_neg (by simp)]
      rcases skipString_cases s0 c!"EIP:" with ⟨b, hb, hk⟩ | hk <;> rw [hk]
      swap
      · rw [if_neg (by simp)]; exact .ok (by rintro _ _ ⟨⟩)
      rw [if_pos (by simp)]
      unfold eipFrame
      refine (span_yields b _).bind fun v ⟨w0, hv, _, hw0⟩ => .ite (fun _ => .ok (by rintro _ _ ⟨⟩)) fun _ => ?_
      refine (address_yields v.2).bind fun a ⟨ha, _⟩ => ?_
      split
      · exact .ok (by rintro _ _ ⟨⟩)
      rename_i s1 hs1
      obtain ⟨at_, h1, hat⟩ := ha s1 hs1
      refine (skipBlanks_yields s1).bind fun s2 ⟨w1, hw1, hb1⟩ => (char_yields s2 (by decide)).bind fun q hq =>
        (skipBlanks_yields q.2).bind fun s3 ⟨w2, hw2, hb2⟩ => (function_yields s3).bind fun f hf => .ok ?_
      obtain ⟨qt, hq, hqt⟩ := question_of hq
      intro k t hkt
      cases f with
      | none => cases hkt
      | some r =>
        obtain ⟨f, t'⟩ := r
        cases hkt
        obtain ⟨ft, hf, hft⟩ := hf f t' rfl
        have he : s0 = (c!"EIP:" ++ (w0 ++ (at_ ++ (w1 ++ (qt ++ (w2 ++ ft)))))) ++ t' := by
          rw [hb, hv, h1, hw1, hq, hw2, hf]; simp only [List.append_assoc]
        refine ⟨⟨_, he⟩, ?_, ⟨[], _, t', he, .inr (.mk hw0 hat hb1 hqt hb2 hft)⟩, b, .inr hb⟩
        show t'.length < s0.length
        rw [he]
        simp only [List.length_append, List.length_cons]
        omega
  · intro r hr
    split
    · exact .ok (by rintro _ _ ⟨⟩)
    · rename_i k t
      obtain ⟨h1, h2, h3, b, h4⟩ := hr k t rfl
      refine (rest_cspan t _).bind fun c hc => .ok ?_
      rintro _ _ ⟨⟩
      refine ⟨hr0.trans (h1.trans hc.1), ?_, Stands.rest hr0 h3, w, b, ?_, hw⟩
      · have := hc.1.len; have := hr0.len; omega
      · rcases h4 with h4 | h4
        · exact .inl (by rw [hs, h4])
        · exact .inr (by rw [hs, h4])

/-! ## The lines of the trace -/

theorem altEnd_yields (s : Str) : Yields (altEnd s) fun r => Rest s r.2 := by
  unfold altEnd
  refine (rest_blanks s).bind fun t ht => (rest_span t _).bind fun a ha => .ite (fun _ => .ok (Rest.refl _)) fun _ => ?_
  dsimp only
  refine .ite (fun _ => .ok (Rest.refl _)) fun _ => (rest_span _ _).bind fun i hi => .ite (fun _ => .ok (Rest.refl _)) fun _ => ?_
  refine (rest_span _ _).bind fun b hb => .ok ?_
  split
  · exact Rest.refl _
  · exact ht.trans (ha.1.trans ((rest_string _ _).trans (hi.1.trans hb.1)))

theorem altStart_yields (s : Str) : Yields (altStart s) fun r => Rest s r.2 := by
  unfold altStart
  refine (rest_blanks s).bind fun t ht => (rest_char t (by decide)).bind fun a ha => .ite (fun _ => .ok (Rest.refl _)) fun _ => ?_
  refine (parseCspan_yields a.2 _).bind fun n hn => ?_
  rcases hn with ⟨m, hm, hs, -⟩ | ⟨hm, -⟩ <;> rw [hm]
  · dsimp only
    refine (rest_char n.2 (by decide)).bind fun b hb => .ok ?_
    split
    · exact ht.trans (ha.1.trans (Rest.trans ⟨m, hs⟩ hb.1))
    · exact Rest.refl _
  · exact .ok (Rest.refl _)

/-- The frames read so far stand in the text, up to the label of the stack. -/
def AllStand (s : Str) (ks : List KoopsFrame) : Prop := ∀ k ∈ ks, ∃ k₀, Stands s k₀ ∧ { k with specialStack := none } = k₀

theorem FrameText.noStack {rest u : Str} {k : KoopsFrame} (h : FrameText rest k u) : k.specialStack = none := by cases h <;> rfl

theorem Stands.noStack {s : Str} {k : KoopsFrame} (h : Stands s k) : k.specialStack = none := by
  obtain ⟨_, _, _, _, h | h⟩ := h
  · exact h.noStack
  · cases h; rfl

theorem AllStand.append {s : Str} {ks ls : List KoopsFrame} (h₁ : AllStand s ks) (h₂ : AllStand s ls) : AllStand s (ks ++ ls) := by
  intro k hk
  rcases List.mem_append.1 hk with h | h
  · exact h₁ k h
  · exact h₂ k h

theorem line_yields (s0 s : Str) (st : State) (hs : Rest s0 s) (hst : AllStand s0 st.frames) : Yields (line st s) fun r =>
    Rest s r.2 ∧ AllStand s0 r.1.frames ∧ (s ≠ [] → r.2.length < s.length ∨ peek r.2 = '\n') := by
  unfold line
  refine Yields.bind (P := fun r => ∀ ms t, r = some (ms, t) → Rest s t ∧ t.length < s.length) ?_ fun m hm => ?_
  · unfold firstModules
    refine .ite (fun _ => .ok (by rintro _ _ ⟨⟩)) fun _ => (modules_yields s).mono fun r hr ms t h => ?_
    exact ⟨(hr ms t h).1, (hr ms t h).2.1⟩
  split
  · rename_i ms t
    obtain ⟨h1, h2⟩ := hm ms t rfl
    exact .ok ⟨h1, hst, fun _ => .inl h2⟩
  refine Yields.bind (P := fun r => ∀ k t, r = some (k, t) → Rest s t ∧ t.length < s.length ∧ Stands s k) ?_ fun i hi => ?_
  · unfold firstIp
    refine .ite (fun _ => .ok (by rintro _ _ ⟨⟩)) fun _ => (ip_yields s).mono fun r hr ms t h => ?_
    exact ⟨(hr ms t h).1, (hr ms t h).2.1, (hr ms t h).2.2.1⟩
  split
  · rename_i k t
    obtain ⟨h1, h2, h3⟩ := hi k t rfl
    refine .ok ⟨h1, ?_, fun _ => .inl h2⟩
    refine AllStand.append (ks := [k]) ?_ hst
    intro k' hk'
    rw [List.mem_singleton.1 hk']
    have hn := h3.noStack
    cases k
    cases hn
    exact ⟨_, Stands.rest hs h3, rfl⟩
  unfold traceLine
  refine (altEnd_yields s).bind fun e he => (altStart_yields e.2).bind fun b hb => (frame_yields b.2).bind fun f hf => ?_
  have hsb : Rest s b.2 := he.trans hb
  split
  · rename_i k t
    obtain ⟨u, hu, hft⟩ := hf k t rfl
    refine .ok ⟨hsb.trans ⟨u, hu⟩, ?_, fun _ => .inl ?_⟩
    · refine hst.append ?_
      intro k' hk'
      rw [List.mem_singleton.1 hk']
      have hn := hft.noStack
      cases k
      cases hn
      exact ⟨_, Stands.rest (hs.trans hsb) ⟨[], u, t, hu, .inl hft⟩, rfl⟩
    · show t.length < s.length
      have := List.length_pos_iff.2 hft.ne
      have := hsb.len
      have : b.2.length = u.length + t.length := by rw [hu, List.length_append]
      omega
  · obtain ⟨a, c, hac, -, hc, hsp⟩ := span_split b.2 c!"\n"
    rw [hsp, Out.bind_ok]
    refine .ok ⟨hsb.trans ⟨a, hac⟩, hst, fun hne => ?_⟩
    show c.length < s.length ∨ peek c = '\n'
    rcases hc with rfl | hc
    · exact .inl (List.length_pos_iff.2 hne)
    · exact .inr (by simpa using hc)

theorem traceLoop_yields (s0 : Str) : ∀ (fuel : Nat) (st : State) (s : Str), s.length < fuel → Rest s0 s → AllStand s0 st.frames →
    Yields (traceLoop fuel st s) fun r => Rest s r.2 ∧ AllStand s0 r.1.frames := by
  intro fuel
  induction fuel with
  | zero => intro _ s h; exact absurd h (by omega)
  | succ fuel ih =>
    intro st s hf hs hst
    unfold traceLoop
    refine .ite (fun _ => .ok ⟨Rest.refl _, hst⟩) fun hne => ?_
    refine (rest_blanks s).bind fun s1 h1 => (timestamp_yields s1).bind fun t ht => (rest_blanks t.2).bind fun s2 h2 => ?_
    have h12 : Rest s s2 := h1.trans (ht.trans h2)
    refine .ite (fun _ => .ok ⟨⟨s, by simp⟩, hst⟩) fun _ => ?_
    refine (line_yields s0 s2 st (hs.trans h12) hst).bind fun r ⟨hr1, hr2, hr3⟩ => ?_
    refine (char_yields' r.2 (by decide)).bind fun n hn => ?_
    have hrn : Rest r.2 n.2 := by
      rcases hn with hn | ⟨-, hn⟩
      · exact ⟨['\n'], hn⟩
      · exact ⟨[], hn.symm⟩
    have hall : Rest s n.2 := h12.trans (hr1.trans hrn)
    have hlen : n.2.length < s.length := by
      have hpos : 0 < s.length := by
        cases s with
        | nil => exact absurd rfl hne
        | cons => simp
      have l1 := h12.len
      have l2 := hr1.len
      have l3 := hrn.len
      by_cases h2e : s2 = []
      · rw [h2e] at l2
        simp at l2
        rw [l2] at l3
        simp at l3
        simp [l3, hpos]
      · rcases hr3 h2e with h | h
        · omega
        · rcases hn with hn | ⟨hn1, hn⟩
          · have : r.2.length = n.2.length + 1 := by rw [hn]; simp
            omega
          · exact absurd h hn1
    exact (ih r.1 n.2 (by omega) (hs.trans hall) hr2).mono fun r hr => ⟨hall.trans hr.1, hr.2⟩

/-- **C56** (kernel oopses): whatever the text is, reading it ends, stays within the text and within the array of modules. -/
theorem C56_koops_trace (s : Str) : Fine (parseTrace s) := by
  unfold parseTrace
  exact ((traceLoop_yields s _ {} s (Nat.lt_succ_self _) (Rest.refl _) (by intro k hk; cases hk)).bind
    (Q := fun _ => True) fun r _ => .ok trivial).fine

/-- **C75** (soundness): whatever the text is, every frame of the stack trace stands in it, with the address, the name, the numbers and
the module that are written there. -/
theorem C75_sound (s : Str) {k : KoopsTrace} {t : Str} (h : parseTrace s = .ok (k, t)) :
    (∃ u, s = u ++ t) ∧ k.rawOops = some s ∧ ∀ f ∈ k.frames, Stands s { f with specialStack := none } := by
  obtain ⟨r, hr, hp⟩ := traceLoop_yields s _ {} s (Nat.lt_succ_self _) (Rest.refl _) (by intro k hk; cases hk)
  unfold parseTrace at h
  rw [hr, Out.bind_ok] at h
  cases h
  refine ⟨hp.1, rfl, fun f hf => ?_⟩
  obtain ⟨k₀, h₀, he⟩ := hp.2 f hf
  rw [he]
  exact h₀

end Satyr.Text.Koops
