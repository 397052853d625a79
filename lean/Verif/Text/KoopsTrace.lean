import Verif.Text.KoopsModules
/-!
# A kernel oops is read completely
-/
namespace Satyr.Text.Koops
open Satyr.CStr Satyr.Frames

/-! ## Marks of special stacks -/

/-- The end of a special stack, such as `<EOI>` or `<<EOE>>`. -/
def Leave (u : Str) : Prop := ∃ a b d, u = a ++ (c!"EO" ++ (b ++ d)) ∧ a ≠ [] ∧ (∀ c ∈ a, c ∈ c!"<") ∧ b ≠ [] ∧ (∀ c ∈ b, c ∈ c!"IE") ∧
  d ≠ [] ∧ ∀ c ∈ d, c ∈ c!">"

/-- The label of a special stack; it cannot be taken for the end of one. -/
def Label (l : Str) : Prop := l ≠ [] ∧ (∀ c ∈ l, c ∉ c!"> \t\n") ∧ peek l ≠ '<' ∧ ∀ r, l ≠ c!"EO" ++ r

instance (l : Str) : Decidable (Label l) :=
  decidable_of_iff (l ≠ [] ∧ (∀ c ∈ l, c ∉ c!"> \t\n") ∧ peek l ≠ '<' ∧ startsWith l c!"EO" = false) (by
    refine and_congr_right fun _ => and_congr_right fun _ => and_congr_right fun _ => ?_
    rw [← Bool.not_eq_true, startsWith_split]
    exact ⟨fun h r hr => h ⟨r, hr⟩, fun h ⟨r, hr⟩ => h r hr⟩)

/-- The marks at the beginning of a line, with the special stack before and after them. -/
inductive Marks : Option Str → Option Str → Str → Prop
  | same {st : Option Str} : Marks st st []
  | leave {st : Option Str} {u : Str} (h : Leave u) : Marks st none u
  | enter {st : Option Str} {l : Str} (h : Label l) : Marks st (some l) (c!"<" ++ (l ++ c!">"))
  | switch {st : Option Str} {u w l : Str} (h : Leave u) (hw : Blank w) (hl : Label l) : Marks st (some l) (u ++ (w ++ (c!"<" ++ (l ++ c!">"))))

theorem leave_yields (s : Str) : Yields (altEnd s) fun r => (∃ w u, Blank w ∧ Leave u ∧ s = w ++ (u ++ r.2)) ∨ r = (false, s) := by
  unfold altEnd
  refine (skipBlanks_yields s).bind fun t ⟨w, ht, hw⟩ => (span_yields t _).bind fun a ⟨as, ha, hal, has⟩ => .ite (fun _ => .ok (.inr rfl)) fun ha0 => ?_
  dsimp only
  rcases skipString_cases a.2 c!"EO" with ⟨o, ho, hk⟩ | hk <;> rw [hk]
  swap
  · rw [if_pos rfl]; exact .ok (.inr rfl)
  rw [if_neg (by simp)]
  refine (span_yields o _).bind fun i ⟨is, hi, hil, his⟩ => .ite (fun _ => .ok (.inr rfl)) fun hi0 => ?_
  refine (span_yields i.2 _).bind fun b ⟨bs, hb, hbl, hbs⟩ => .ok ?_
  split
  · exact .inr rfl
  · rename_i hb0
    refine .inl ⟨w, _, hw, ⟨as, is, bs, rfl, ?_, has, ?_, his, ?_, hbs⟩, ?_⟩
    · rintro rfl; exact ha0 hal.symm
    · rintro rfl; exact hi0 hil.symm
    · rintro rfl; exact hb0 hbl.symm
    · show s = w ++ (_ ++ b.2)
      rw [ht, ha, ho, hi, hb]
      simp

theorem leave_read {u w s : Str} (h : Leave u) (hw : Blank w) (hs : peek s ≠ '>') : altEnd (w ++ (u ++ s)) = .ok (true, s) := by
  obtain ⟨a, b, d, rfl, ha, ha', hb, hb', hd, hd'⟩ := h
  have hpa : ∀ r, peek (a ++ r) ∉ c!" \t" := by
    intro r
    cases a with
    | nil => exact absurd rfl ha
    | cons x a => have := ha' x List.mem_cons_self; show x ∉ _; revert this; simp; rintro rfl; decide
  have hpb : ∀ r, peek (b ++ r) ∈ c!"IE" := by
    intro r
    cases b with
    | nil => exact absurd rfl hb
    | cons x b => exact hb' x List.mem_cons_self
  have hpd : ∀ r, peek (d ++ r) ∈ c!">" := by
    intro r
    cases d with
    | nil => exact absurd rfl hd
    | cons x d => exact hd' x List.mem_cons_self
  rw [show a ++ (c!"EO" ++ (b ++ d)) ++ s = a ++ (c!"EO" ++ (b ++ (d ++ s))) by simp only [List.append_assoc], altEnd, skipBlanks_read hw (hpa _), Out.bind_ok, skipSpan_append ha' (by show 'E' ∉ _; decide), Out.bind_ok,
    if_neg (by simpa using ha)]
  dsimp only
  rw [skipString_append, if_neg (by simp), skipSpan_append hb' (by have := hpd s; revert this; generalize peek (d ++ s) = x; revert x; decide), Out.bind_ok, if_neg (by simpa using hb),
    skipSpan_append hd' (by simpa using hs), Out.bind_ok, if_neg (by simpa using hd)]

theorem noLeave_read {s : Str} (h : ∀ w u r, Blank w → Leave u → s ≠ w ++ (u ++ r)) : altEnd s = .ok (false, s) := by
  obtain ⟨r, hr, ⟨w, u, hw, hu, hs⟩ | rfl⟩ := leave_yields s
  · exact absurd hs (h w u _ hw hu)
  · exact hr

theorem Leave.peek {u : Str} (h : Leave u) (r : Str) : CStr.peek (u ++ r) = '<' := by
  obtain ⟨a, b, d, rfl, ha, ha', -⟩ := h
  cases a with
  | nil => exact absurd rfl ha
  | cons x a => simpa using ha' x List.mem_cons_self

/-- The first character after the blanks. -/
theorem first_char {w w' s t : Str} (hw : Blank w) (hw' : Blank w') (hs : CStr.peek s ∉ c!" \t") (ht : CStr.peek t ∉ c!" \t") (h : w ++ s = w' ++ t) :
    w = w' ∧ s = t := by
  have h1 := skipSpan_append (set := c!" \t") hw hs
  have h2 := skipSpan_append (set := c!" \t") hw' ht
  rw [h] at h1
  rw [h1] at h2
  injection h2 with h2
  injection h2 with h2 h3
  refine ⟨?_, h3⟩
  rw [h3] at h
  exact List.append_cancel_right h

theorem noLeave_peek {w s : Str} (hw : Blank w) (hs : peek s ∉ c!" \t<") : altEnd (w ++ s) = .ok (false, w ++ s) := by
  refine noLeave_read fun w' u r hw' hu h => ?_
  obtain ⟨-, h2⟩ := first_char hw hw' (fun hx => hs (by revert hx; simp; tauto)) (by rw [hu.peek]; decide) h
  exact hs (by rw [h2, hu.peek]; decide)

theorem noLeave_label {l s : Str} (hl : Label l) : altEnd (c!"<" ++ (l ++ c!">") ++ s) = .ok (false, c!"<" ++ (l ++ c!">") ++ s) := by
  refine noLeave_read fun w' u r hw' hu h => ?_
  have e : c!"<" ++ (l ++ c!">") ++ s = [] ++ (c!"<" ++ (l ++ (c!">" ++ s))) := by simp
  rw [e] at h
  obtain ⟨-, h2⟩ := first_char Blank.nil hw' (by show '<' ∉ _; decide) (by rw [hu.peek]; decide) h
  obtain ⟨a, b, d, rfl, ha, ha', -⟩ := hu
  obtain ⟨hne, -, h3, h4⟩ := hl
  obtain ⟨x, a, rfl⟩ := List.exists_cons_of_ne_nil ha
  have h5 := (List.cons.inj h2).2
  cases a with
  | nil =>
    cases l with
    | nil => exact hne rfl
    | cons y l =>
      cases l with
      | nil =>
        have h6 := (List.cons.inj (List.cons.inj h5).2).1
        exact absurd h6 (by decide)
      | cons z l =>
        have h6 := (List.cons.inj h5).1
        have h7 := (List.cons.inj (List.cons.inj h5).2).1
        exact h4 l (by rw [h6, h7]; rfl)
  | cons y a =>
    cases l with
    | nil => exact hne rfl
    | cons z l =>
      have h6 := (List.cons.inj h5).1
      have h7 := ha' y (by simp)
      exact h3 (by show z = '<'; rw [h6]; simpa using h7)

theorem enter_read {w l : Str} (hw : Blank w) (hl : Label l) (s : Str) : altStart (w ++ (c!"<" ++ (l ++ c!">") ++ s)) = .ok (some l, s) := by
  rw [show c!"<" ++ (l ++ c!">") ++ s = '<' :: (l ++ ('>' :: s)) by simp, altStart, skipBlanks_read hw (by show '<' ∉ _; decide), Out.bind_ok,
    skipChar_cons (by decide), Out.bind_ok, if_neg (by simp), parseCspan_append hl.2.1 (.inr (by show '>' ∈ _; decide)) hl.1, Out.bind_ok]
  dsimp only
  rw [skipChar_cons (by decide), Out.bind_ok]
  rfl

theorem noEnter_read {w s : Str} (hw : Blank w) (hs : peek s ∉ c!" \t<") : altStart (w ++ s) = .ok (none, w ++ s) := by
  rw [altStart, skipBlanks_read hw (fun hx => hs (by revert hx; simp; tauto)), Out.bind_ok,
    skipChar_not (by decide) (of_peek hs (by decide)), Out.bind_ok, if_pos rfl]

/-- There are no marks at the beginning: the first character is not `>`, and the first character after blanks is not `<`. -/
def Unmarked (s : Str) : Prop := peek s ≠ '>' ∧ ∃ w r, Blank w ∧ s = w ++ r ∧ peek r ∉ c!" \t<"

/-- What is done with the marks before a line. -/
theorem marks_read {st st' : Option Str} {m s : Str} (h : Marks st st' m) (hs : Unmarked s) :
    ∃ e b, altEnd (m ++ s) = .ok e ∧ altStart e.2 = .ok b ∧ b.2 = s ∧ (if b.1.isSome then b.1 else if e.1 then none else st) = st' := by
  obtain ⟨hg, w, r, hw, rfl, hr⟩ := hs
  cases h with
  | same => exact ⟨_, _, noLeave_peek (w := w) hw hr, noEnter_read (w := w) hw hr, rfl, by simp⟩
  | leave h => exact ⟨_, _, leave_read (w := []) (s := w ++ r) h Blank.nil hg, noEnter_read hw hr, rfl, by simp⟩
  | enter h => exact ⟨_, _, noLeave_label h, enter_read (w := []) Blank.nil h _, rfl, by simp⟩
  | @switch u v l h hv hl =>
    have := leave_read (w := []) (s := v ++ (c!"<" ++ (l ++ c!">") ++ (w ++ r))) h Blank.nil (hv.peek_ne (by decide) (by show '<' ≠ '>'; decide))
    refine ⟨(true, v ++ (c!"<" ++ (l ++ c!">") ++ (w ++ r))), (some l, w ++ r), ?_, enter_read hv hl _, rfl, rfl⟩
    rw [← this]
    simp

/-! ## Lines -/

/-- No frame stands at the beginning. -/
def NoFrame (s : Str) : Prop := ∀ k u r, FrameText r k u → s ≠ u ++ r

theorem noFrame_read {s : Str} (h : NoFrame s) : parseFrame s = .ok none := by
  obtain ⟨r, hr, hp⟩ := frame_yields s
  cases r with
  | none => exact hr
  | some r =>
    obtain ⟨u, hu, hf⟩ := hp r.1 r.2 rfl
    exact absurd hu (h _ _ _ hf)

/-- The line is none of the special lines that are looked for at this point. -/
def Plain (hm hi : Bool) (s : Str) : Prop := (hm = false → ∀ r, s ≠ c!"Modules linked in:" ++ r) ∧
  (hi = false → (∀ r, s ≠ c!"RIP:" ++ r) ∧ ∀ r, s ≠ c!"EIP:" ++ r)

theorem plain_peek (hm hi : Bool) {s : Str} (h : peek s ∉ c!"MRE") : Plain hm hi s :=
  ⟨fun _ => by rintro r rfl; exact h (by show 'M' ∈ _; decide),
   fun _ => ⟨by rintro r rfl; exact h (by show 'R' ∈ _; decide), by rintro r rfl; exact h (by show 'E' ∈ _; decide)⟩⟩

theorem plain_read {st : State} {s : Str} (hs : peek s ∉ c!" \t") (h : Plain st.modules.isSome st.ip s) : line st s = traceLine st s := by
  have h1 : firstModules st s = .ok none := by
    unfold firstModules
    by_cases hm : st.modules.isSome = true
    · rw [if_pos hm]
    · rw [if_neg hm, parseModules, skipBlanks_same hs, Out.bind_ok, skipString_none (h.1 (by simpa using hm)), if_pos rfl]
  have h2 : firstIp st s = .ok none := by
    unfold firstIp
    by_cases hi : st.ip = true
    · rw [if_pos hi]
    · have := h.2 (by simpa using hi)
      rw [if_neg hi, parseIp, skipBlanks_same hs, Out.bind_ok, ipStart, skipString_none this.1, if_neg (by simp), skipString_none this.2, if_neg (by simp),
        Out.bind_ok]
  rw [line, h1, Out.bind_ok]
  dsimp only
  rw [h2, Out.bind_ok]

/-- What stands before the text of a line: blanks, and perhaps the time. -/
inductive Prefix : Str → Str → Prop
  | plain {w s : Str} (hw : Blank w) (hs : peek s ∉ c!" \t") (hn : NoStamp s) : Prefix w s
  | stamped {w u v s : Str} (hw : Blank w) (hu : Stamp u) (hv : Blank v) (hs : peek s ∉ c!" \t") : Prefix (w ++ (u ++ v)) s

theorem Prefix.first {p s : Str} (h : Prefix p s) : peek s ∉ c!" \t" := by cases h <;> assumption

theorem prefix_read {p s : Str} (h : Prefix p s) : ∃ t b, skipBlanks (p ++ s) = .ok t ∧ skipTimestamp t = .ok b ∧ skipBlanks b.2 = .ok s := by
  cases h with
  | plain hw hs hn => exact ⟨_, _, skipBlanks_read hw hs, noStamp_read hn, skipBlanks_same hs⟩
  | @stamped w u v s hw hu hv hs =>
    refine ⟨u ++ (v ++ s), (true, v ++ s), ?_, stamp_read hu _, skipBlanks_read hv hs⟩
    rw [List.append_assoc, List.append_assoc]
    refine skipBlanks_read hw ?_
    obtain ⟨x, a, b, rfl, -⟩ := hu
    show '[' ∉ _
    decide

theorem step {p s r n : Str} {b : Bool} {st st' : State} (fuel : Nat) (h0 : peek (p ++ s) ≠ '\x00') (hp : Prefix p s)
    (hl : ∀ r, s ≠ c!"Last Breaking-Event-Address:\n" ++ r) (h : line st s = .ok (st', r)) (hn : skipChar r '\n' = .ok (b, n)) :
    traceLoop (fuel + 1) st (p ++ s) = traceLoop fuel st' n := by
  obtain ⟨t, v, h1, h2, h3⟩ := prefix_read hp
  rw [traceLoop, if_neg h0, h1, Out.bind_ok, h2, Out.bind_ok, h3, Out.bind_ok, skipString_none hl, if_neg (by simp), h, Out.bind_ok]
  dsimp only
  rw [hn, Out.bind_ok]

theorem step_last {p s : Str} {st : State} (fuel : Nat) (h0 : peek (p ++ (c!"Last Breaking-Event-Address:\n" ++ s)) ≠ '\x00')
    (hp : Prefix p (c!"Last Breaking-Event-Address:\n" ++ s)) :
    traceLoop (fuel + 1) st (p ++ (c!"Last Breaking-Event-Address:\n" ++ s)) = .ok (st, []) := by
  obtain ⟨t, v, h1, h2, h3⟩ := prefix_read hp
  rw [traceLoop, if_neg h0, h1, Out.bind_ok, h2, Out.bind_ok, h3, Out.bind_ok, skipString_append, if_pos (by simp)]

/-- A line with a frame. -/
theorem frame_line {st : State} {st' : Option Str} {m s rest : Str} {k : KoopsFrame} (hm : Marks st.stack st' m) (hu : Unmarked s)
    (hf : parseFrame s = .ok (some (k, rest))) :
    traceLine st (m ++ s) = .ok ({ st with stack := st', frames := st.frames ++ [{ k with specialStack := st' }] }, rest) := by
  obtain ⟨e, b, h1, h2, h3, h4⟩ := marks_read hm hu
  rw [traceLine, h1, Out.bind_ok, h2, Out.bind_ok, h3]
  dsimp only
  rw [h4, hf, Out.bind_ok]

/-- A line without a frame. -/
theorem other_line {st : State} {st' : Option Str} {m t r : Str} (hm : Marks st.stack st' m) (hu : Unmarked (t ++ r)) (ht : '\n' ∉ t)
    (hr : r = [] ∨ peek r = '\n') (hf : NoFrame (t ++ r)) : traceLine st (m ++ (t ++ r)) = .ok ({ st with stack := st' }, r) := by
  obtain ⟨e, b, h1, h2, h3, h4⟩ := marks_read hm hu
  rw [traceLine, h1, Out.bind_ok, h2, Out.bind_ok, h3]
  dsimp only
  rw [h4, noFrame_read hf, Out.bind_ok]
  dsimp only
  rw [skipCspan_append (a := t) (b := r) (fun c hc hx => ht (by rwa [List.mem_singleton.1 hx] at hc)) (by simpa using hr), Out.bind_ok]

/-- The end of a line and the text after it. -/
theorem newline_read {e rest : Str} (h : LineEnds e rest) : ∃ b, skipChar (e ++ rest) '\n' = .ok (b, rest) := by
  rcases h with rfl | ⟨rfl, rfl⟩
  · exact ⟨true, skipChar_cons (by decide) _⟩
  · exact ⟨false, rfl⟩

/-! ## The instruction pointer -/

/-- The line with the instruction pointer, up to the end of what is skipped after it. On x86_64 the whole next line is skipped. -/
inductive IpText (rest : Str) : KoopsFrame → Str → Prop
  | rip {k : KoopsFrame} {w x v t l : Str} (hw : w ≠ []) (hb : Blank w) (hx : x ≠ []) (hx' : ∀ c ∈ x, c ∉ c!" \t") (hv : v ≠ []) (hv' : Blank v)
      (hk : KernelLine k t) (ht : peek t ∉ c!" \t") (hl : '\n' ∉ l) : IpText rest k (c!"RIP:" ++ (w ++ (x ++ (v ++ (t ++ (c!"\n" ++ l))))))
  | eip {a : Nat} {f : Function} {rel : Bool} {w at_ w₁ q w₂ ft l : Str} (hw : w ≠ []) (hb : Blank w) (ha : AddressText a at_) (h₁ : Blank w₁)
      (hq : Question rel q) (h₂ : Blank w₂) (hf : FunctionBody f ft) (hc : Clear f) (hl : '\n' ∉ l) (hs : Stop (l ++ rest)) :
      IpText rest (frameOf a rel f) (c!"EIP:" ++ (w ++ (at_ ++ (w₁ ++ (q ++ (w₂ ++ (ft ++ l)))))))

theorem ip_read {rest t : Str} {k : KoopsFrame} (h : IpText rest k t) (hr : rest = [] ∨ peek rest = '\n') : parseIp (t ++ rest) = .ok (some (k, rest)) := by
  cases h with
  | @rip k w x v t l hw hb hx hx' hv hv' hk ht hl =>
    have hp : peek (x ++ (v ++ (t ++ (c!"\n" ++ (l ++ rest))))) ∉ c!" \t" := by
      cases x with
      | nil => exact absurd rfl hx
      | cons c x => exact hx' c List.mem_cons_self
    have hpv : peek (v ++ (t ++ (c!"\n" ++ (l ++ rest)))) ∈ c!" \t" := by
      cases v with
      | nil => exact absurd rfl hv
      | cons c v => exact hv' c List.mem_cons_self
    have hpt : peek (t ++ (c!"\n" ++ (l ++ rest))) ∉ c!" \t" := by
      cases t with
      | nil => show '\n' ∉ _; decide
      | cons c t => exact ht
    rw [show c!"RIP:" ++ (w ++ (x ++ (v ++ (t ++ (c!"\n" ++ l))))) ++ rest = c!"RIP:" ++ (w ++ (x ++ (v ++ (t ++ (c!"\n" ++ (l ++ rest)))))) by simp,
      parseIp, skipBlanks_same (by show 'R' ∉ _; decide), Out.bind_ok, ipStart, skipString_append, if_pos (by simp), ripFrame,
      skipSpan_append hb hp, Out.bind_ok, if_neg (by simpa using hw), skipCspan_append hx' (.inr hpv), Out.bind_ok, if_neg (by simpa using hx),
      skipSpan_append hv' hpt, Out.bind_ok, if_neg (by simpa using hv), C74_read_partial hk (.inl rfl), Out.bind_ok]
    dsimp only
    rw [skipCspan_append (a := l) (b := rest) (fun c hc hx => hl (by rwa [List.mem_singleton.1 hx] at hc)) (by simpa using hr), Out.bind_ok]
  | @eip a f rel w at_ w₁ q w₂ ft l hw hb ha h₁ hq h₂ hf hc hl hs =>
    have hfp := hf.peek hc (l ++ rest)
    obtain ⟨s1, s2, e1, e2, e3⟩ := blanks_question h₁ hq h₂ (s := ft ++ (l ++ rest)) (fun hx => hfp (by simp at hx ⊢; tauto))
    obtain ⟨w', hw', hbody⟩ := body_read (w := []) hf hc Blank.nil hs
    rw [show c!"EIP:" ++ (w ++ (at_ ++ (w₁ ++ (q ++ (w₂ ++ (ft ++ l)))))) ++ rest = c!"EIP:" ++ (w ++ (at_ ++ (w₁ ++ (q ++ (w₂ ++ (ft ++ (l ++ rest))))))) by simp,
      parseIp, skipBlanks_same (by show 'E' ∉ _; decide), Out.bind_ok, ipStart, skipString_none (by intro r hr; injection hr with hr; exact absurd hr (by decide)), if_neg (by simp),
      skipString_append, if_pos (by simp), eipFrame, skipSpan_append hb (by rw [ha.peek]; decide), Out.bind_ok, if_neg (by simpa using hw), address_read ha, Out.bind_ok]
    dsimp only
    rw [e1, Out.bind_ok, e2, Out.bind_ok, e3, Out.bind_ok, show ft ++ (l ++ rest) = ft ++ ([] ++ (l ++ rest)) from rfl, hbody, Out.bind_ok, Bool.not_not]
    show (skipCharCspan (w' ++ (l ++ rest)) c!"\n" >>= _) = _
    rw [← List.append_assoc, skipCspan_append (a := w' ++ l) (b := rest) (fun c hc hx => by
      rw [List.mem_singleton.1 hx] at hc
      rcases List.mem_append.1 hc with h | h
      · exact absurd (hw' _ h) (by decide)
      · exact hl h) (by simpa using hr), Out.bind_ok]

/-! ## The whole oops -/

/-- What an oops shows. -/
structure Found where
  modules : Option (List Str) := none
  ip : Option KoopsFrame := none
  frames : List KoopsFrame := []

/-- The text of an oops from some line on. `hm` and `hi` tell whether the modules and the instruction pointer have been seen, `st`
is the special stack that the lines are on. -/
inductive TraceText : Bool → Bool → Option Str → Found → Str → Prop
  /-- The end of the text. -/
  | nil {hm hi : Bool} {st : Option Str} : TraceText hm hi st {} []
  /-- A frame. -/
  | frame {hm hi : Bool} {st st' : Option Str} {k : KoopsFrame} {o : Found} {p m t e rest : Str} (hp : Prefix p (m ++ (t ++ (e ++ rest))))
      (hmk : Marks st st' m) (hk : KernelLine k t) (hg : peek t ≠ '>') (he : LineEnds e rest) (hpl : Plain hm hi (m ++ (t ++ (e ++ rest))))
      (hl : ∀ r, m ++ (t ++ (e ++ rest)) ≠ c!"Last Breaking-Event-Address:\n" ++ r) (h : TraceText hm hi st' o rest) :
      TraceText hm hi st { o with frames := { k with specialStack := st' } :: o.frames } (p ++ (m ++ (t ++ (e ++ rest))))
  /-- A frame in the short format of ARM. -/
  | arm {hm hi : Bool} {st st' : Option Str} {k : KoopsFrame} {o : Found} {p m t e rest : Str} (hp : Prefix p (m ++ (t ++ (e ++ rest))))
      (hmk : Marks st st' m) (hk : ArmLine k t) (he : LineEnds e rest) (h : TraceText hm hi st' o rest) :
      TraceText hm hi st { o with frames := { k with specialStack := st' } :: o.frames } (p ++ (m ++ (t ++ (e ++ rest))))
  /-- Any other line, perhaps with marks. -/
  | other {hm hi : Bool} {st st' : Option Str} {o : Found} {p m t e rest : Str} (hp : Prefix p (m ++ (t ++ (e ++ rest)))) (hmk : Marks st st' m)
      (ht : '\n' ∉ t) (hu : Unmarked (t ++ (e ++ rest))) (hf : NoFrame (t ++ (e ++ rest))) (he : LineEnds e rest) (hpl : Plain hm hi (m ++ (t ++ (e ++ rest))))
      (hl : ∀ r, m ++ (t ++ (e ++ rest)) ≠ c!"Last Breaking-Event-Address:\n" ++ r) (hne : p ++ (m ++ (t ++ e)) ≠ []) (h : TraceText hm hi st' o rest) :
      TraceText hm hi st o (p ++ (m ++ (t ++ (e ++ rest))))
  /-- The modules. -/
  | modules {hi : Bool} {st : Option Str} {o : Found} {p t e rest : Str} {ms : List Str} (hp : Prefix p (c!"Modules linked in:" ++ (t ++ (e ++ rest))))
      (hn : Names (e ++ rest) .line ms t) (he : e = c!"\n" ∨ e = [] ∧ peek rest ≠ '\n') (h : TraceText true hi st o rest) :
      TraceText false hi st { o with modules := some ms } (p ++ (c!"Modules linked in:" ++ (t ++ (e ++ rest))))
  /-- The instruction pointer. -/
  | ip {hm : Bool} {st : Option Str} {o : Found} {k : KoopsFrame} {p t e rest : Str} (hp : Prefix p (t ++ (e ++ rest))) (hk : IpText (e ++ rest) k t)
      (he : LineEnds e rest) (h : TraceText hm true st o rest) : TraceText hm false st { o with ip := some k } (p ++ (t ++ (e ++ rest)))
  /-- The rest of an oops on s390 is not looked at. -/
  | breaking {hm hi : Bool} {st : Option Str} {p t : Str} (hp : Prefix p (c!"Last Breaking-Event-Address:\n" ++ t)) :
      TraceText hm hi st {} (p ++ (c!"Last Breaking-Event-Address:\n" ++ t))

theorem FunctionBody.unmarked {f : Function} {t : Str} (h : FunctionBody f t) (hc : Clear f) (rest : Str) : CStr.peek (t ++ rest) ∉ c!" \t<" := by
  cases h with
  | @named n o l w₁ w₂ mt off len m hn =>
    obtain ⟨hne, hn⟩ := hn
    cases n with
    | nil => exact absurd rfl hne
    | cons c n => exact fun hx => hn c List.mem_cons_self (by change c ∈ _ at hx; revert hx; simp; tauto)
  | address => show '0' ∉ _; decide

theorem unmarked_skip {w s : Str} (hw : Blank w) (h : ∃ v r, Blank v ∧ s = v ++ r ∧ peek r ∉ c!" \t<") : ∃ v r, Blank v ∧ w ++ s = v ++ r ∧ peek r ∉ c!" \t<" := by
  obtain ⟨v, r, hv, rfl, hr⟩ := h
  exact ⟨w ++ v, r, hw.append hv, by rw [List.append_assoc], hr⟩

theorem unmarked_here {s : Str} (h : peek s ∉ c!" \t<") : ∃ v r, Blank v ∧ s = v ++ r ∧ peek r ∉ c!" \t<" := ⟨[], s, Blank.nil, rfl, h⟩

theorem KernelLine.ne {k : KoopsFrame} {t : Str} (h : KernelLine k t) : t ≠ [] := by
  have hf : ∀ {f t}, FunctionBody f t → t ≠ [] := by rintro f t (h | h) <;> simp
  cases h with
  | x86 _ _ _ _ _ h => simp [hf h]
  | s390 => simp
  | arm => simp
  | ppc _ _ _ _ _ _ h => simp [hf h]
  | address => simp

theorem KernelLine.unmarked {k : KoopsFrame} {t : Str} (h : KernelLine k t) (hg : CStr.peek t ≠ '>') (rest : Str) : Unmarked (t ++ rest) := by
  refine ⟨by rwa [peek_append h.ne], ?_⟩
  cases h with
  | x86 h₀ ha h₁ hq h₂ hf hc h₃ hn =>
    rw [List.append_assoc]
    refine unmarked_skip h₀ ?_
    cases ha with
    | some ha => exact unmarked_here (by rw [List.append_assoc, ha.peek]; decide)
    | none =>
      rw [List.nil_append, List.append_assoc]
      refine unmarked_skip h₁ ?_
      cases hq with
      | unreliable => exact unmarked_here (by show '?' ∉ _; decide)
      | reliable =>
        rw [List.nil_append, List.append_assoc]
        exact unmarked_skip h₂ (unmarked_here (by rw [List.append_assoc]; exact hf.unmarked hc _))
  | s390 h₀ =>
    rw [List.append_assoc]
    exact unmarked_skip h₀ (unmarked_here (by show '(' ∉ _; decide))
  | arm h₀ ha =>
    rw [List.append_assoc]
    exact unmarked_skip h₀ (unmarked_here (by rw [List.append_assoc, ha.peek]; decide))
  | ppc h₀ ha =>
    rw [List.append_assoc]
    exact unmarked_skip h₀ (unmarked_here (by rw [List.append_assoc, ha.peek]; decide))
  | address h₀ =>
    rw [List.append_assoc]
    exact unmarked_skip h₀ (unmarked_here (by show '0' ∉ _; decide))

theorem ArmLine.unmarked {k : KoopsFrame} {t : Str} (h : ArmLine k t) (rest : Str) : Unmarked (t ++ rest) := by
  obtain ⟨h₀, ha, -⟩ := h
  rw [List.append_assoc]
  refine ⟨h₀.peek_ne (by decide) (by rw [List.append_assoc, ha.peek]; decide), unmarked_skip h₀ (unmarked_here (by rw [List.append_assoc, ha.peek]; decide))⟩

theorem ArmLine.first {k : KoopsFrame} {t m : Str} {st st' : Option Str} (h : ArmLine k t) (hm : Marks st st' m) (rest : Str)
    (hb : CStr.peek (m ++ (t ++ rest)) ∉ c!" \t") : CStr.peek (m ++ (t ++ rest)) ∈ c!"<[" := by
  cases hm with
  | same =>
    cases h with
    | @mk a b f rel w₀ at_ w₁ q w₂ n w₃ w₄ bt w₅ ft h₀ ha =>
      cases w₀ with
      | nil => rw [List.nil_append, List.nil_append, List.append_assoc, ha.peek]; decide
      | cons c w => exact absurd (h₀ c List.mem_cons_self) hb
  | leave h => rw [h.peek]; decide
  | enter h => show '<' ∈ _; decide
  | switch h => rw [List.append_assoc, h.peek]; decide

theorem TraceText.seen {hm hi : Bool} {st : Option Str} {o : Found} {s : Str} (h : TraceText hm hi st o s) :
    (hm = true → o.modules = none) ∧ (hi = true → o.ip = none) := by
  induction h with
  | nil | breaking => exact ⟨fun _ => rfl, fun _ => rfl⟩
  | frame | arm | other => assumption
  | modules _ _ _ _ ih => exact ⟨by rintro ⟨⟩, ih.2⟩
  | ip _ _ _ _ ih => exact ⟨ih.1, by rintro ⟨⟩⟩

theorem peek_nul {s : Str} (hne : s ≠ []) (h : '\x00' ∉ s) : peek s ≠ '\x00' := by
  cases s with
  | nil => exact absurd rfl hne
  | cons c s => rintro rfl; exact h List.mem_cons_self

theorem LineEnds.cases {e rest : Str} (h : LineEnds e rest) : e ++ rest = [] ∨ CStr.peek (e ++ rest) = '\n' := by
  rcases h with rfl | ⟨rfl, rfl⟩
  · exact .inr rfl
  · exact .inl rfl

/-- An empty line is not a frame. -/
theorem frame_newline (r : Str) : parseFrame ('\n' :: r) = .ok none := by
  have hp : ∀ cs : Str, '\n' ∉ cs → peek ('\n' :: r) ∉ cs := fun _ h => h
  have h1 := ppc_not (w := []) (s := '\n' :: r) Blank.nil (hp _ (by decide))
  have h2 := arm_not (w := []) (s := '\n' :: r) Blank.nil (hp _ (by decide))
  have h3 := general_noaddr (w₀ := []) (s := '\n' :: r) Blank.nil (hp _ (by decide)) (by intro q hq; injection hq with hq; exact absurd hq (by decide))
  rw [List.nil_append] at h1 h2 h3
  rw [frame_of_general h1 h2, h3, generalBody, skipBlanks_same (hp _ (by decide)), Out.bind_ok, skipChar_not (by decide) (by show '\n' ≠ '?'; decide), Out.bind_ok,
    skipBlanks_same (hp _ (by decide)), Out.bind_ok, parseFunction, skipChar_not (by decide) (by show '\n' ≠ '('; decide), Out.bind_ok,
    hex0x_peek (by show '\n' ≠ '0'; decide), Out.bind_ok, if_neg (by simp), parseCspan_stop (.inr (by show '\n' ∈ _; decide)), Out.bind_ok, Out.bind_ok]

/-- An empty line is skipped. -/
theorem traceLoop_newline (fuel : Nat) (st : State) (r : Str) : traceLoop (fuel + 1) st ('\n' :: r) = traceLoop fuel st r := by
  have hp : ∀ cs : Str, '\n' ∉ cs → peek ('\n' :: r) ∉ cs := fun _ h => h
  refine step (p := []) (s := '\n' :: r) (r := '\n' :: r) fuel (by show '\n' ≠ _; decide) (.plain Blank.nil (hp _ (by decide)) (noStamp_peek (by show '\n' ≠ _; decide)))
    (by intro q hq; injection hq with hq; exact absurd hq (by decide)) ?_ (skipChar_cons (by decide) r)
  rw [plain_read (hp _ (by decide)) (plain_peek _ _ (hp _ (by decide))), traceLine]
  have h1 := noLeave_peek (w := []) (s := '\n' :: r) Blank.nil (hp _ (by decide))
  have h2 := noEnter_read (w := []) (s := '\n' :: r) Blank.nil (hp _ (by decide))
  rw [List.nil_append] at h1 h2
  rw [h1, Out.bind_ok, h2, Out.bind_ok]
  dsimp only
  rw [frame_newline, Out.bind_ok]
  dsimp only
  have h3 := skipCspan_append (a := []) (b := '\n' :: r) (set := c!"\n") (by simp) (.inr (by show '\n' ∈ _; decide))
  rw [List.nil_append] at h3
  rw [h3, Out.bind_ok]
  rfl

/-- The state after the rest has been read. -/
def Done (fuel : Nat) (st : State) (o : Found) (s : Str) : Prop :=
  ∃ st', traceLoop fuel st s = .ok (st', []) ∧ st'.modules = (o.modules <|> st.modules) ∧ st'.frames = o.ip.toList ++ (st.frames ++ o.frames)

theorem trace_read {hm hi : Bool} {stk : Option Str} {o : Found} {s : Str} (h : TraceText hm hi stk o s) : ∀ (fuel : Nat) (st : State), '\x00' ∉ s →
    s.length < fuel → st.modules.isSome = hm → st.ip = hi → st.stack = stk → Done fuel st o s := by
  have nul : ∀ {a b c d e : Str}, '\x00' ∉ a ++ (b ++ (c ++ (d ++ e))) → '\x00' ∉ e := by
    intro a b c d e h hx
    exact h (by simp [hx])
  induction h with
  | nil =>
    intro fuel st _ hf _ _ _
    cases fuel with
    | zero => exact absurd hf (by omega)
    | succ fuel => exact ⟨st, rfl, rfl, by simp⟩
  | @frame hm hi st₀ st' k o p m t e rest hp hmk hk hg he hpl hl h ih =>
    intro fuel st h0 hf h1 h2 h3
    cases fuel with
    | zero => exact absurd hf (by omega)
    | succ fuel =>
      subst h1 h2 h3
      have hpos := List.length_pos_iff.2 hk.ne
      have hne := peek_nul (s := p ++ (m ++ (t ++ (e ++ rest)))) (by simp [hk.ne]) h0
      have hline := plain_read hp.first hpl
      rw [frame_line hmk (hk.unmarked hg _) (C74_read_partial hk he)] at hline
      simp only [List.length_append] at hf
      obtain ⟨n, hn, hcase⟩ := char_yields' rest (c := '\n') (by decide)
      have hstep := step fuel hne hp hl hline hn
      have key : Done fuel { st with stack := st', frames := st.frames ++ [{ k with specialStack := st' }] } o n.2 := by
        rcases hcase with hc | ⟨-, hc⟩
        · have := ih (fuel + 1) { st with stack := st', frames := st.frames ++ [{ k with specialStack := st' }] } (nul h0) (by omega) rfl rfl rfl
          rw [hc, Done, traceLoop_newline] at this
          exact this
        · rw [hc]
          exact ih fuel _ (nul h0) (by omega) rfl rfl rfl
      obtain ⟨s', k1, k2, k3⟩ := key
      exact ⟨s', hstep.trans k1, k2, by rw [k3]; simp⟩
  | @arm hm hi st₀ st' k o p m t e rest hp hmk hk he h ih =>
    intro fuel st h0 hf h1 h2 h3
    cases fuel with
    | zero => exact absurd hf (by omega)
    | succ fuel =>
      subst h1 h2 h3
      have hfirst := hk.first hmk (e ++ rest) hp.first
      have htne : t ≠ [] := by obtain ⟨-, -⟩ := hk; simp
      have hpos := List.length_pos_iff.2 htne
      have hne := peek_nul (s := p ++ (m ++ (t ++ (e ++ rest)))) (by simp [htne]) h0
      have hline := plain_read (st := st) hp.first (plain_peek _ _ (by revert hfirst; generalize peek (m ++ (t ++ (e ++ rest))) = c; revert c; decide))
      rw [frame_line hmk (hk.unmarked _) (C74_arm_read_partial hk _)] at hline
      simp only [List.length_append] at hf
      obtain ⟨b, hn⟩ := newline_read he
      have hstep := step fuel hne hp (by intro r hr; rw [hr] at hfirst; exact absurd hfirst (by show 'L' ∉ _; decide)) hline hn
      obtain ⟨s', k1, k2, k3⟩ := ih fuel { st with stack := st', frames := st.frames ++ [{ k with specialStack := st' }] } (nul h0) (by omega) rfl rfl rfl
      exact ⟨s', hstep.trans k1, k2, by rw [k3]; simp⟩
  | @other hm hi st₀ st' o p m t e rest hp hmk ht hu hf' he hpl hl hne' h ih =>
    intro fuel st h0 hf h1 h2 h3
    cases fuel with
    | zero => exact absurd hf (by omega)
    | succ fuel =>
      subst h1 h2 h3
      have hpos := List.length_pos_iff.2 hne'
      have hne := peek_nul (s := p ++ (m ++ (t ++ (e ++ rest)))) (by
        intro hx
        apply hne'
        simp only [List.append_eq_nil_iff] at hx ⊢
        tauto) h0
      have hline := plain_read hp.first hpl
      rw [other_line hmk hu ht he.cases hf'] at hline
      simp only [List.length_append] at hf hpos
      obtain ⟨b, hn⟩ := newline_read he
      have hstep := step fuel hne hp hl hline hn
      obtain ⟨s', k1, k2, k3⟩ := ih fuel { st with stack := st' } (nul h0) (by omega) rfl rfl rfl
      exact ⟨s', hstep.trans k1, k2, k3⟩
  | @modules hi st₀ o p t e rest ms hp hn he h ih =>
    intro fuel st h0 hf h1 h2 h3
    cases fuel with
    | zero => exact absurd hf (by omega)
    | succ fuel =>
      subst h2 h3
      have hne := peek_nul (by simp) h0
      have hm0 : st.modules = none := by simpa using h1
      have hline : line st (c!"Modules linked in:" ++ (t ++ (e ++ rest))) = .ok ({ st with modules := some ms }, e ++ rest) := by
        rw [line, firstModules, if_neg (by simp [h1])]
        have := C57_modules_text_partial (w := []) Blank.nil hn
        rw [List.nil_append] at this
        rw [this, Out.bind_ok]
      simp only [List.length_append, List.length_cons] at hf
      obtain ⟨b, hb⟩ : ∃ b, skipChar (e ++ rest) '\n' = .ok (b, rest) := by
        rcases he with rfl | ⟨rfl, he⟩
        · exact ⟨true, skipChar_cons (by decide) _⟩
        · exact ⟨false, skipChar_not (by decide) he⟩
      have hstep := step fuel hne hp (by intro r hr; injection hr with hr; exact absurd hr (by decide)) hline hb
      obtain ⟨s', k1, k2, k3⟩ := ih fuel { st with modules := some ms } (nul h0) (by omega) rfl rfl rfl
      refine ⟨s', hstep.trans k1, ?_, k3⟩
      rw [k2, h.seen.1 rfl]
      rfl
  | @ip hm st₀ o k p t e rest hp hk he h ih =>
    intro fuel st h0 hf h1 h2 h3
    cases fuel with
    | zero => exact absurd hf (by omega)
    | succ fuel =>
      subst h1 h3
      have htne : t ≠ [] := by cases hk <;> simp
      have hpos := List.length_pos_iff.2 htne
      have hne := peek_nul (s := p ++ (t ++ (e ++ rest))) (by simp [htne]) h0
      have hfirst : peek (t ++ (e ++ rest)) ∈ c!"RE" := by
        cases hk
        · show 'R' ∈ _; decide
        · show 'E' ∈ _; decide
      have hline : line st (t ++ (e ++ rest)) = .ok ({ st with frames := k :: st.frames, ip := true }, e ++ rest) := by
        have hm0 : firstModules st (t ++ (e ++ rest)) = .ok none := by
          unfold firstModules
          split
          · rfl
          · rw [parseModules, skipBlanks_same (by revert hfirst; generalize peek (t ++ (e ++ rest)) = c; revert c; decide), Out.bind_ok,
              skipString_none (by intro r hr; rw [hr] at hfirst; exact absurd hfirst (by show 'M' ∉ _; decide)), if_pos rfl]
        rw [line, hm0, Out.bind_ok]
        dsimp only
        rw [firstIp, if_neg (by simp [h2]), ip_read hk he.cases, Out.bind_ok]
      simp only [List.length_append] at hf
      obtain ⟨b, hb⟩ := newline_read he
      have hstep := step fuel hne hp (by intro r hr; rw [hr] at hfirst; exact absurd hfirst (by show 'L' ∉ _; decide)) hline hb
      obtain ⟨s', k1, k2, k3⟩ := ih fuel { st with frames := k :: st.frames, ip := true } (fun hx => h0 (by simp [hx])) (by omega) rfl rfl rfl
      refine ⟨s', hstep.trans k1, k2, ?_⟩
      rw [k3, h.seen.2 rfl]
      rfl
  | @breaking hm hi st₀ p t hp =>
    intro fuel st h0 hf h1 h2 h3
    cases fuel with
    | zero => exact absurd hf (by omega)
    | succ fuel => exact ⟨st, step_last fuel (peek_nul (by simp) h0) hp, rfl, by simp⟩

/-- **C75**: an oops is read completely: the frames in their order with the stacks that they are on, the instruction pointer first,
the modules, the taint flags of the text and the first line. -/
theorem C75_read_partial {s : Str} {o : Found} (h0 : '\x00' ∉ s) (h : TraceText false false none o s) :
    parseTrace s = .ok ({ taint := Koops.parseTaintFlags s {}, modules := o.modules, rawOops := some s, frames := o.ip.toList ++ o.frames,
                          reason := some (s.takeWhile (· ≠ '\n')) }, []) := by
  obtain ⟨st, h1, h2, h3⟩ := trace_read h (s.length + 1) {} h0 (Nat.lt_succ_self _) rfl rfl rfl
  unfold parseTrace
  rw [h1, Out.bind_ok, h2, h3]
  cases o.modules <;> rfl

/-! ## Lines without frames -/

/-- A `+` or an `x` stands in the first line. -/
def Early (u : Str) : Prop := ∃ a c b, u = a ++ c :: b ∧ c ∈ c!"+x" ∧ '\n' ∉ a

theorem Early.prepend {w u : Str} (hw : '\n' ∉ w) (h : Early u) : Early (w ++ u) := by
  obtain ⟨a, c, b, rfl, hc, ha⟩ := h
  exact ⟨w ++ a, c, b, by simp, hc, by simp [hw, ha]⟩

theorem Early.append {u : Str} (h : Early u) (v : Str) : Early (u ++ v) := by
  obtain ⟨a, c, b, rfl, hc, ha⟩ := h
  exact ⟨a, c, b ++ v, by simp, hc, ha⟩

theorem Blank.noNl {w : Str} (h : Blank w) : '\n' ∉ w := fun hx => absurd (h _ hx) (by decide)

theorem HexText.noNl {n : Nat} {ds : Str} (h : HexText n ds) : '\n' ∉ ds := fun hx => absurd (h.2.1 _ hx) (by decide)

theorem AddressText.noNl {n : Nat} {t : Str} (h : AddressText n t) : '\n' ∉ t := by
  cases h with
  | angle h => simp [h.noNl]
  | square h => simp [h.noNl]

theorem Question.noNl {r : Bool} {t : Str} (h : Question r t) : '\n' ∉ t := by cases h <;> decide

theorem Dot.noNl {t : Str} (h : Dot t) : '\n' ∉ t := by cases h <;> decide

theorem StartText.noNl {n : Nat} {t u : Str} (h : StartText n t u) : '\n' ∉ t := by
  cases h with
  | address h => exact h.noNl
  | _ => simp

theorem FunctionName.noNl {n : Str} (h : FunctionName n) : '\n' ∉ n := fun hx => absurd (h.2 _ hx) (by decide)

theorem FunctionBody.early {f : Function} {t : Str} (h : FunctionBody f t) : Early t := by
  cases h with
  | @named n o l w₁ w₂ mt off len m hn => exact ⟨n, '+', _, rfl, by decide, hn.noNl⟩
  | @address a ds h => exact ⟨c!"0", 'x', ds, rfl, by decide, by decide⟩

theorem FunctionText.early {f : Function} {t : Str} (h : FunctionText f t) : Early t := by
  cases h with
  | plain h => exact h.early
  | paren h => exact (Early.prepend (w := c!"(") (by decide) h.early).append _

theorem FrameText.early {rest u : Str} {k : KoopsFrame} (h : FrameText rest k u) : Early u := by
  cases h with
  | ppc h₀ hs h₁ ha h₂ hd hf =>
    exact .prepend h₀.noNl (.prepend hs.noNl (.prepend h₁.noNl (.prepend ha.noNl (.prepend h₂.noNl (.prepend hd.noNl (hf.early.append _))))))
  | arm h₀ ha h₁ hq h₂ hn h₃ h₄ hb h₅ hf =>
    exact .prepend h₀.noNl (.prepend ha.noNl (.prepend h₁.noNl (.prepend hq.noNl (.prepend h₂.noNl (.prepend (by decide) (.prepend hn.noNl
      (.prepend (by decide) (.prepend h₃.noNl (.prepend (by decide) (.prepend h₄.noNl (.prepend hb.noNl (.prepend h₅.noNl hf.early))))))))))))
  | plain h₀ hs h₁ hq h₂ hf =>
    exact .prepend h₀.noNl (.prepend hs.noNl (.prepend h₁.noNl (.prepend hq.noNl (.prepend h₂.noNl (hf.early.append _)))))
  | paren h₀ hs h₁ hq h₂ hf =>
    exact .prepend h₀.noNl (.prepend (by decide) (.prepend hs.noNl (.prepend h₁.noNl (.prepend hq.noNl (.prepend h₂.noNl (hf.early.append _))))))
  | @address a w₀ p ds e h₀ hp ha he =>
    refine .prepend h₀.noNl (.prepend (by rcases hp with rfl | rfl <;> decide) ?_)
    exact ⟨c!"0", 'x', _, rfl, by decide, by decide⟩

/-- A line without `+` and `x` is not a frame. -/
theorem noFrame_of {t r : Str} (ht : ∀ c ∈ t, c ∉ c!"+x") (hr : r = [] ∨ peek r = '\n') : NoFrame (t ++ r) := by
  intro k u rest h hs
  obtain ⟨a, c, b, rfl, hc, ha⟩ := h.early
  rw [List.append_assoc] at hs
  rcases List.append_eq_append_iff.1 hs with ⟨d, hd, he⟩ | ⟨d, hd, he⟩
  · rcases hr with rfl | hr
    · simp at he
    · cases d with
      | nil =>
        rw [List.nil_append] at he
        rw [he] at hr
        rw [show c = '\n' from hr] at hc
        exact absurd hc (by decide)
      | cons x d =>
        rw [he] at hr
        exact ha (by rw [hd, show x = '\n' from hr]; simp)
  · cases d with
    | nil =>
      rw [List.nil_append, List.cons_append] at he
      rcases hr with rfl | hr
      · simp at he
      · rw [← he] at hr
        rw [show c = '\n' from hr] at hc
        exact absurd hc (by decide)
    | cons x d =>
      have hx := (List.cons.inj he).1
      exact ht c (by rw [hd, hx]; simp) hc

/-! ## An oops that meets the hypotheses, and some that do not -/

theorem last_peek {s : Str} (h : peek s ≠ 'L') : ∀ r, s ≠ c!"Last Breaking-Event-Address:\n" ++ r := by rintro r rfl; exact h rfl

/-- A line without anything special. -/
theorem TraceText.line {hm hi : Bool} {st : Option Str} {o : Found} {t rest : Str} (h : TraceText hm hi st o rest)
    (ht : ∀ c ∈ t, c ∉ c!"\n+x") (hp : peek (t ++ (c!"\n" ++ rest)) ∉ c!" \t<>[MREL") : TraceText hm hi st o (t ++ (c!"\n" ++ rest)) :=
  have sub : ∀ cs : Str, (∀ c ∈ cs, c ∈ c!" \t<>[MREL") → peek (t ++ (c!"\n" ++ rest)) ∉ cs := fun _ h hx => hp (h _ hx)
  .other (p := []) (m := []) (.plain Blank.nil (sub _ (by decide)) (noStamp_peek (of_peek hp (by decide)))) .same
    (fun hx => ht _ hx (by decide)) ⟨of_peek hp (by decide), [], _, Blank.nil, rfl, sub _ (by decide)⟩
    (noFrame_of (fun c hc hx => ht c hc (by revert hx; simp; tauto)) (.inr rfl)) (.inl rfl) (plain_peek _ _ (sub _ (by decide)))
    (last_peek (of_peek hp (by decide))) (by simp) h

/-- A frame `[<a>] n+0x1/0x2` after some mark. -/
theorem TraceText.simple {hm hi : Bool} {st st' : Option Str} {o : Found} {m n ds rest : Str} {a : Nat} (h : TraceText hm hi st' o rest)
    (hm' : Marks st st' m) (hmne : peek m = '<') (hn : FunctionName n) (hc : peek n ∉ c!"[(?0") (ha : HexText a ds) :
    TraceText hm hi st { o with frames := { address := a, reliable := true, functionName := some n, functionOffset := 1, functionLength := 2, specialStack := st' } :: o.frames }
      (c!" " ++ (m ++ (c!" " ++ ((c!"[<" ++ ds ++ c!">]") ++ (c!" " ++ (n ++ c!"+0x1/0x2"))) ++ (c!"\n" ++ rest)))) := by
  have hpk : ∀ r, peek (m ++ r) = '<' := by
    intro r
    cases m with
    | nil => exact absurd hmne (by decide)
    | cons c m => exact hmne
  refine .frame (k := { address := a, reliable := true, functionName := some n, functionOffset := 1, functionLength := 2 }) (p := c!" ") (e := c!"\n")
    (.plain (by decide) (by rw [hpk]; decide) (noStamp_peek (by rw [hpk]; decide))) hm' ?_ (by show ' ' ≠ '>'; decide) (.inl rfl)
    (plain_peek _ _ (by rw [hpk]; decide)) (last_peek (by rw [hpk]; decide)) h
  have := KernelLine.x86 (w₀ := c!" ") (w₁ := c!" ") (w₂ := []) (w₃ := []) (q := []) (by decide) (.some (.angle ha)) (by decide) .reliable (by decide)
    (.named (o := c!"0x1") (l := c!"0x2") (w₁ := []) (mt := []) (w₂ := []) hn (.hex (n := 1) (ds := c!"1") (by decide))
      (.hex (n := 2) (ds := c!"2") (by decide)) (by decide) .none (by decide)) (clear_of (fun hx => hc (by revert hx; simp; tauto)) (of_peek hc (by decide))) (by decide) (by simp)
  simpa [frameOf] using this

/-- A whole oops with modules, an instruction pointer and two stacks. -/
example : TraceText false false none
    { modules := some [c!"kvm", c!"wl"],
      ip := some { address := 16, reliable := true, functionName := some c!"f", functionOffset := 1, functionLength := 2 },
      frames := [{ address := 32, reliable := true, functionName := some c!"g", functionOffset := 1, functionLength := 2, specialStack := some c!"IRQ" },
                 { address := 48, reliable := true, functionName := some c!"h", functionOffset := 1, functionLength := 2 }] }
    c!"BUG: soft lockup\n[  1.5] Modules linked in: kvm wl\nPid: 1, comm: sh Tainted: P\nRIP: 0010:[<10>] [<10>] f+0x1/0x2\nRSP: 0018\nCall Trace:\n <IRQ> [<20>] g+0x1/0x2\n <EOI> [<30>] h+0x1/0x2\nCode: 90\n" := by
  have t0 : TraceText true true none {} c!"Code: 90\n" := TraceText.line (t := c!"Code: 90") .nil (by decide) (by decide)
  have t1 := TraceText.simple (m := c!"<EOI>") (n := c!"h") (ds := c!"30") (a := 48) (st := some c!"IRQ") t0
    (.leave ⟨c!"<", c!"I", c!">", rfl, by decide, by decide, by decide, by decide, by decide, by decide⟩) rfl (by decide) (by decide) (by decide)
  have t2 := TraceText.simple (m := c!"<IRQ>") (n := c!"g") (ds := c!"20") (a := 32) (st := none) t1
    (.enter (l := c!"IRQ") (by decide)) rfl (by decide) (by decide) (by decide)
  have t3 := TraceText.line (t := c!"Call Trace:") t2 (by decide) (by show 'C' ∉ _; decide)
  have t4 := TraceText.ip (p := []) (e := c!"\n") (t := c!"RIP: 0010:[<10>] [<10>] f+0x1/0x2\nRSP: 0018") (.plain Blank.nil (by show 'R' ∉ _; decide) (noStamp_peek (by show 'R' ≠ _; decide)))
    (.rip (w := c!" ") (x := c!"0010:[<10>]") (v := c!" ") (t := c!"[<10>] f+0x1/0x2") (l := c!"RSP: 0018") (by decide) (by decide) (by decide) (by decide) (by decide) (by decide)
      (.x86 (f := ⟨some c!"f", 1, 2, none⟩) (w₀ := []) (at_ := c!"[<10>]") (w₁ := c!" ") (q := []) (w₂ := []) (ft := c!"f+0x1/0x2") (w₃ := []) (by decide)
        (.some (.angle (n := 16) (ds := c!"10") (by decide))) (by decide) .reliable (by decide)
        (.named (n := c!"f") (o := c!"0x1") (l := c!"0x2") (w₁ := []) (mt := []) (w₂ := []) (by decide) (.hex (n := 1) (ds := c!"1") (by decide))
          (.hex (n := 2) (ds := c!"2") (by decide)) (by decide) .none (by decide)) (clear_of (by decide) (by decide)) (by decide) (by simp)) (by decide) (by decide)) (.inl rfl) t3
  have t5 := TraceText.line (t := c!"Pid: 1, comm: sh Tainted: P") t4 (by decide) (by show 'P' ∉ _; decide)
  have t6 := TraceText.modules (p := c!"[  1.5] ") (e := c!"\n") (t := c!" kvm wl") (ms := [c!"kvm", c!"wl"])
    (.stamped (w := []) (u := c!"[  1.5]") (v := c!" ") (by decide) ⟨c!"  ", c!"1", c!"5", rfl, by decide, by decide, by decide, by decide, by decide⟩ (by decide) (by show 'M' ∉ _; decide))
    (.space (p := .line) (w := c!" ") (t := c!"kvm wl") (by decide) (by decide) <|
      .name (n := c!"kvm") (t := c!" wl") rfl (by decide) <|
      .space (p := .name c!"kvm") (w := c!" ") (t := c!"wl") (by decide) (by decide) <|
      .name (n := c!"wl") (t := []) rfl (by decide) <| .stop (p := .name c!"wl") (.inr (.inr ⟨_, rfl, .pid (r := _)⟩))) (.inl rfl) t5
  exact TraceText.line (t := c!"BUG: soft lockup") t6 (by decide) (by show 'B' ∉ _; decide)

/-- The function names of a stack trace that was read. -/
def functionNames : Out (KoopsTrace × Str) → Option (List (Option Str))
  | .ok (k, _) => some (k.frames.map (·.functionName))
  | _ => none

/-- C75 does not hold for the line after the instruction pointer: it is skipped, also if it has a frame (here `g`). -/
theorem C75_not_after_ip : functionNames (parseTrace c!"RIP: x f+0x1/0x2\n g+0x1/0x2\n h+0x1/0x2\n") = some [some c!"f", some c!"h"] := by
  decide +kernel

/-- C75 does not hold for the instruction pointer as newer kernels print it: `f` is lost, `g` of the next line is taken for the
instruction pointer, and `h` of the line after it is skipped. -/
theorem C75_not_new_ip : functionNames (parseTrace c!"RIP: 0010:f+0x1/0x2\n g+0x1/0x2\n h+0x1/0x2\n") = some [some c!"g"] := by
  decide +kernel

end Satyr.Text.Koops
