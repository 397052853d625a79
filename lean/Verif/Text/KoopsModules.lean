import Verif.Text.KoopsSafe
/-!
# The module list and the taint letters of a kernel oops
-/
namespace Satyr.Text.Koops
open Satyr.CStr Satyr.Frames

/-! ## Timestamps -/

/-- The time before a line, such as `[    0.000000]`. -/
def Stamp (u : Str) : Prop := ∃ w a b, u = c!"[" ++ (w ++ (a ++ (c!"." ++ (b ++ c!"]")))) ∧ (∀ c ∈ w, c ∈ c!" \t\r\n\x0b\x0c") ∧
  a ≠ [] ∧ (∀ c ∈ a, c ∈ digits10) ∧ b ≠ [] ∧ ∀ c ∈ b, c ∈ digits10

/-- No timestamp stands at the beginning. -/
def NoStamp (s : Str) : Prop := ∀ u r, Stamp u → s ≠ u ++ r

theorem digit_peek {a : Str} (hne : a ≠ []) (h : ∀ c ∈ a, c ∈ digits10) (r : Str) : peek (a ++ r) ∈ digits10 := by
  cases a with
  | nil => exact absurd rfl hne
  | cons x a => exact h x List.mem_cons_self

theorem digit_not {c : Char} (h : c ∈ digits10) : c ∉ c!" \t\r\n\x0b\x0c" := by
  revert c; decide

theorem stamp_read {u : Str} (h : Stamp u) (rest : Str) : skipTimestamp (u ++ rest) = .ok (true, rest) := by
  obtain ⟨w, a, b, rfl, hw, ha, ha', hb, hb'⟩ := h
  have e : c!"[" ++ (w ++ (a ++ (c!"." ++ (b ++ c!"]")))) ++ rest = '[' :: (w ++ (a ++ ('.' :: (b ++ (']' :: rest))))) := by simp
  rw [e, skipTimestamp, skipChar_cons (by decide), Out.bind_ok, if_neg (by simp),
    skipSpan_append hw (digit_not (digit_peek ha ha' _)), Out.bind_ok, skipSpan_append ha' (by show '.' ∉ digits10; decide), Out.bind_ok,
    if_neg (by simpa using ha), skipChar_cons (by decide), Out.bind_ok, if_neg (by simp),
    skipSpan_append hb' (by show ']' ∉ digits10; decide), Out.bind_ok, if_neg (by simpa using hb), skipChar_cons (by decide), Out.bind_ok]
  rfl

theorem stamp_yields (s : Str) : Yields (skipTimestamp s) fun r => (∃ u, Stamp u ∧ s = u ++ r.2) ∨ r = (false, s) := by
  unfold skipTimestamp
  refine (char_yields s (by decide)).bind fun a ha => .ite (fun _ => .ok (.inr rfl)) fun ha1 => ?_
  refine (span_yields a.2 _).bind fun w ⟨ws, hw, _, hws⟩ => (span_yields w.2 _).bind fun n ⟨ns, hn, hnl, hns⟩ => .ite (fun _ => .ok (.inr rfl)) fun hn0 => ?_
  refine (char_yields n.2 (by decide)).bind fun d hd => .ite (fun _ => .ok (.inr rfl)) fun hd1 => ?_
  refine (span_yields d.2 _).bind fun m ⟨ms, hm, hml, hms⟩ => .ite (fun _ => .ok (.inr rfl)) fun hm0 => ?_
  refine (char_yields m.2 (by decide)).bind fun b hb => .ok ?_
  rcases ha with ⟨-, ha⟩ | ⟨ha, -⟩
  swap
  · exact absurd ha ha1
  rcases hd with ⟨-, hd⟩ | ⟨hd, -⟩
  swap
  · exact absurd hd hd1
  rcases hb with ⟨hb1, hb⟩ | ⟨hb, -⟩
  swap
  · rw [hb]; exact .inr rfl
  rw [hb1]
  refine .inl ⟨_, ⟨ws, ns, ms, rfl, hws, ?_, hns, ?_, hms⟩, ?_⟩
  · rintro rfl; exact hn0 hnl.symm
  · rintro rfl; exact hm0 hml.symm
  · show s = _ ++ b.2
    rw [ha, hw, hn, hd, hm, hb]
    simp

theorem noStamp_read {s : Str} (h : NoStamp s) : skipTimestamp s = .ok (false, s) := by
  obtain ⟨r, hr, ⟨u, hu, hs⟩ | rfl⟩ := stamp_yields s
  · exact absurd hs (h u r.2 hu)
  · exact hr

theorem noStamp_peek {s : Str} (h : peek s ≠ '[') : NoStamp s := by
  rintro u r ⟨w, a, b, rfl, -⟩ rfl
  exact h rfl

/-! ## The module list -/

/-- The name of a module in the list, with the letters that follow it. -/
def ModName (m : Str) : Prop := m ≠ [] ∧ ∀ c ∈ m, c ∉ c!" \t\n["

instance (m : Str) : Decidable (ModName m) := inferInstanceAs (Decidable (m ≠ [] ∧ ∀ c ∈ m, c ∉ c!" \t\n["))

/-- The lines that do not belong to the list any more. -/
inductive AfterList : Str → Prop
  | stamp {u r : Str} (h : Stamp u) : AfterList (u ++ r)
  | pid {r : Str} : AfterList (c!"Pid: " ++ r)
  | cpu {w d r : Str} (hw : w ≠ []) (hw' : ∀ c ∈ w, c ∈ c!" :") (hd : d ≠ []) (hd' : ∀ c ∈ d, c ∈ digits10) : AfterList (c!"CPU" ++ (w ++ (d ++ r)))
  | irq {w d r : Str} (hw : w ≠ []) (hw' : ∀ c ∈ w, c ∈ c!" :") (hd : d ≠ []) (hd' : ∀ c ∈ d, c ∈ digits10) :
      AfterList (c!"irq event stamp" ++ (w ++ (d ++ r)))
  | cr2 {d r : Str} (hd : d ≠ []) (hd' : ∀ c ∈ d, c ∈ digits16) : AfterList (c!"CR2: " ++ (d ++ r))

/-- The lines that go on with the list: none of the words above stands at the beginning. -/
def GoesOn (s : Str) : Prop := NoStamp s ∧ (∀ r, s ≠ c!"Pid: " ++ r) ∧ (∀ r, s ≠ c!"CPU" ++ r) ∧ (∀ r, s ≠ c!"irq event stamp" ++ r) ∧
  ∀ r, s ≠ c!"CR2: " ++ r

/-- What may follow the list: the end of the text, a bracket as in `[last unloaded: …]`, or a line that does not belong to it. -/
def ListEnds (rest : Str) : Prop := rest = [] ∨ peek rest = '[' ∨ ∃ r, rest = '\n' :: r ∧ AfterList r

/-- The place in the list: after blanks, at the beginning of a line, or right after a name. -/
inductive Place
  | blank
  | line
  | name (m : Str)

/-- The names that are known at a place. -/
def Place.names : Place → List Str
  | name m => [m]
  | _ => []

/-- The text of a list of modules from some place on, before `rest`. Lines may be broken after blanks, before a space, or in the
middle of a name. -/
inductive Names (rest : Str) : Place → List Str → Str → Prop
  | stop {p : Place} (h : ListEnds rest) : Names rest p p.names []
  | last {m : Str} (h : rest = [] ∨ peek rest = '[') (hg : GoesOn rest) : Names rest (.name m) [m] c!"\n"
  | name {p : Place} {n t : Str} {ms : List Str} (hp : p.names = []) (hn : ModName n) (h : Names rest (.name n) ms t) : Names rest p ms (n ++ t)
  | space {p : Place} {w t : Str} {ms : List Str} (hw : w ≠ []) (hb : Blank w) (h : Names rest .blank ms t) : Names rest p (p.names ++ ms) (w ++ t)
  | newline {t : Str} {ms : List Str} (hg : GoesOn (t ++ rest)) (h : Names rest .line ms t) : Names rest .blank ms (c!"\n" ++ t)
  | indent {m t : Str} {ms : List Str} (hs : peek t = ' ') (h : Names rest .line ms t) : Names rest (.name m) (m :: ms) (c!"\n" ++ t)
  | broken {m n t : Str} {ms : List Str} (hn : ModName n) (hg : GoesOn (n ++ t ++ rest)) (h : Names rest (.name (m ++ n)) ms t) :
      Names rest (.name m) ms (c!"\n" ++ (n ++ t))

theorem skipString_none {s a : Str} (h : ∀ r, s ≠ a ++ r) : skipString s a = (0, s) := by
  rcases skipString_cases s a with ⟨b, hb, -⟩ | h'
  · exact absurd hb (h b)
  · exact h'

theorem keyword_read {k w d r : Str} (hk : k ≠ []) (hw : w ≠ []) (hw' : ∀ c ∈ w, c ∈ c!" :") (hd : d ≠ []) (hd' : ∀ c ∈ d, c ∈ digits10) :
    ∃ s, keywordNumber k (k ++ (w ++ (d ++ r))) = .ok (true, s) := by
  have hp := digit_peek hd hd' r
  rw [keywordNumber, skipString_append, if_neg (by simpa using hk),
    skipSpan_append hw' (by intro h; revert hp h; generalize peek (d ++ r) = c; revert c; decide), Out.bind_ok, if_neg (by simpa using hw)]
  obtain ⟨n, hn, a, ha, hl, -⟩ := span_yields (d ++ r) digits10
  refine ⟨n.2, ?_⟩
  rw [hn, Out.bind_ok]
  have : n.1 ≠ 0 := by
    rw [← hl]
    have := skipCharSpan_eq (d ++ r) digits10
    rw [hn] at this
    injection this with this
    rw [hl, this]
    cases d with
    | nil => exact absurd rfl hd
    | cons x d =>
      rw [List.cons_append, List.takeWhile_cons_of_pos (by simpa using hd' x List.mem_cons_self)]
      simp
  simp [this]

theorem keyword_none {k s : Str} (h : ∀ r, s ≠ k ++ r) : keywordNumber k s = .ok (false, s) := by
  rw [keywordNumber, skipString_none h, if_pos rfl]

theorem goesOn_read {s : Str} (h : GoesOn s) : listContinues s = .ok true := by
  obtain ⟨h1, h2, h3, h4, h5⟩ := h
  rw [listContinues, noStamp_read h1, Out.bind_ok, if_neg (by simp), skipString_none h2, if_neg (by simp), keyword_none h3, Out.bind_ok,
    if_neg (by simp), keyword_none h4, Out.bind_ok, if_neg (by simp), skipString_none h5, if_pos rfl]

theorem goesOn_peek {s : Str} (h : peek s ∉ c!"[PCi") : GoesOn s := by
  refine ⟨noStamp_peek fun he => h (by rw [he]; decide), ?_, ?_, ?_, ?_⟩ <;> rintro r rfl
  · exact h (by show 'P' ∈ _; decide)
  · exact h (by show 'C' ∈ _; decide)
  · exact h (by show 'i' ∈ _; decide)
  · exact h (by show 'C' ∈ _; decide)

theorem afterList_read {s : Str} (h : AfterList s) : listContinues s = .ok false := by
  have nostamp : ∀ {c : Char} {t : Str}, c ≠ '[' → skipTimestamp (c :: t) = .ok (false, c :: t) := fun hc => noStamp_read (noStamp_peek hc)
  cases h with
  | stamp h => rw [listContinues, stamp_read h, Out.bind_ok, if_pos rfl]
  | @pid r =>
    rw [listContinues, show c!"Pid: " ++ r = 'P' :: (c!"id: " ++ r) from rfl, nostamp (by decide), Out.bind_ok, if_neg (by simp),
      show 'P' :: (c!"id: " ++ r) = c!"Pid: " ++ r from rfl, skipString_append, if_pos (by simp)]
  | @cpu w d r hw hw' hd hd' =>
    obtain ⟨s, hs⟩ := keyword_read (k := c!"CPU") (r := r) (by simp) hw hw' hd hd'
    rw [listContinues, show c!"CPU" ++ (w ++ (d ++ r)) = 'C' :: (c!"PU" ++ (w ++ (d ++ r))) from rfl, nostamp (by decide), Out.bind_ok,
      if_neg (by simp), show 'C' :: (c!"PU" ++ (w ++ (d ++ r))) = c!"CPU" ++ (w ++ (d ++ r)) from rfl, skipString_none (by simp), if_neg (by simp),
      hs, Out.bind_ok, if_pos rfl]
  | @irq w d r hw hw' hd hd' =>
    obtain ⟨s, hs⟩ := keyword_read (k := c!"irq event stamp") (r := r) (by simp) hw hw' hd hd'
    rw [listContinues, show c!"irq event stamp" ++ (w ++ (d ++ r)) = 'i' :: (c!"rq event stamp" ++ (w ++ (d ++ r))) from rfl, nostamp (by decide), Out.bind_ok,
      if_neg (by simp), show 'i' :: (c!"rq event stamp" ++ (w ++ (d ++ r))) = c!"irq event stamp" ++ (w ++ (d ++ r)) from rfl, skipString_none (by simp),
      if_neg (by simp), keyword_none (by simp), Out.bind_ok, if_neg (by simp), hs, Out.bind_ok, if_pos rfl]
  | @cr2 d r hd hd' =>
    rw [listContinues, show c!"CR2: " ++ (d ++ r) = 'C' :: (c!"R2: " ++ (d ++ r)) from rfl, nostamp (by decide), Out.bind_ok,
      if_neg (by simp), show 'C' :: (c!"R2: " ++ (d ++ r)) = c!"CR2: " ++ (d ++ r) from rfl, skipString_none (by simp), if_neg (by simp),
      keyword_none (by simp), Out.bind_ok, if_neg (by simp), keyword_none (by simp), Out.bind_ok, if_neg (by simp), skipString_append, if_neg (by simp)]
    have := skipCharSpan_eq (d ++ r) digits16
    rw [this, Out.bind_ok]
    cases d with
    | nil => exact absurd rfl hd
    | cons x d =>
      rw [List.cons_append, List.takeWhile_cons_of_pos (by simpa using hd' x List.mem_cons_self)]
      simp

/-- The loop from a place with `k` blanks before it. -/
def go (fuel : Nat) (mods : List Str) (size k : Nat) (s : Str) : Out (List Str × Nat × Str) := do
  let w ← skipCharSpan s c!" \t"
  modulesLoop fuel mods size (k + w.1) w.2

theorem span_blanks {w : Str} (hw : Blank w) (s : Str) : ∃ n r, skipCharSpan s c!" \t" = .ok (n, r) ∧
    skipCharSpan (w ++ s) c!" \t" = .ok (w.length + n, r) := by
  refine ⟨_, _, skipCharSpan_eq s _, ?_⟩
  rw [skipCharSpan_eq]
  have h : ∀ c ∈ w, (c!" \t").contains c = true := fun c hc => by simpa using hw c hc
  rw [List.takeWhile_append_of_pos h, List.dropWhile_append_of_pos h, List.length_append]

theorem go_blanks {w : Str} (hw : Blank w) (fuel : Nat) (mods : List Str) (size k : Nat) (s : Str) :
    go fuel mods size k (w ++ s) = go fuel mods size (k + w.length) s := by
  obtain ⟨n, r, h1, h2⟩ := span_blanks hw s
  rw [go, go, h1, h2, Out.bind_ok, Out.bind_ok, Nat.add_assoc]

theorem go_word {fuel : Nat} {mods : List Str} {size k : Nat} {s : Str} (h : peek s ∉ c!" \t") :
    go fuel mods size k s = modulesLoop fuel mods size k s := by
  have := skipSpan_append (a := []) (b := s) (set := c!" \t") (by simp) h
  rw [go, show skipCharSpan s c!" \t" = .ok (0, s) from this, Out.bind_ok]
  rfl

theorem go_name {fuel : Nat} {mods : List Str} {size : Nat} (n s : Str) (hn : ModName n) (hs : s = [] ∨ peek s ∈ c!" \t\n[") (hsz : mods.length < size) :
    ∃ size', mods.length + 1 < size' ∧ ∀ k, go (fuel + 1) mods size k (n ++ s) = go fuel (mods ++ [n]) size' 0 s := by
  obtain ⟨r, hr, hr1, hr2⟩ := storeModule_yields n hsz
  refine ⟨r.2, by rw [hr1] at hr2; simpa using hr2, fun k => ?_⟩
  have hp : peek (n ++ s) ∉ c!" \t\n[" := by
    obtain ⟨hne, hn⟩ := hn
    cases n with
    | nil => exact absurd rfl hne
    | cons x n => exact hn x List.mem_cons_self
  rw [go_word (fun hx => hp (by revert hx; simp; tauto)), modulesLoop, parseCspan_append hn.2 hs hn.1, Out.bind_ok]
  dsimp only
  rw [hr, Out.bind_ok, go, hr1]
  simp only [Nat.zero_add]

theorem parseCspan_stop {s set : Str} (h : s = [] ∨ peek s ∈ set) : (parseCharCspan s set) = .ok (none, s) := by
  rw [parseCharCspan_eq]
  cases s with
  | nil => rfl
  | cons c s =>
    have : c ∈ set := by simpa [CStr.peek] using h
    rw [List.takeWhile_cons_of_neg (by simpa using this), List.dropWhile_cons_of_neg (by simpa using this)]
    rfl

theorem loop_newline {fuel : Nat} {mods : List Str} {size k : Nat} {s : Str} (hg : GoesOn s) (h : peek s = ' ' ∨ k ≠ 0) :
    go (fuel + 1) mods size k ('\n' :: s) = go fuel mods size 0 s := by
  rw [go_word (by show '\n' ∉ c!" \t"; decide), modulesLoop, parseCspan_stop (.inr (by show '\n' ∈ _; decide)), Out.bind_ok]
  dsimp only
  rw [if_pos (show peek ('\n' :: s) = '\n' from rfl)]
  show (listContinues s >>= _) = _
  rw [goesOn_read hg, Out.bind_ok, if_neg (by simp), if_neg (by tauto), go]
  simp only [Nat.zero_add]

theorem go_stop {fuel : Nat} {mods : List Str} {size k : Nat} {rest : Str} (h : ListEnds rest) :
    go (fuel + 1) mods size k rest = .ok (mods, size, rest) := by
  rcases h with rfl | h | ⟨r, rfl, h⟩
  · rfl
  · rw [go_word (by rw [h]; decide), modulesLoop, parseCspan_stop (.inr (by rw [h]; decide)), Out.bind_ok]
    dsimp only
    rw [if_neg (by rw [h]; decide)]
  · rw [go_word (by show '\n' ∉ c!" \t"; decide), modulesLoop, parseCspan_stop (.inr (by show '\n' ∈ _; decide)), Out.bind_ok]
    dsimp only
    rw [if_pos (show CStr.peek ('\n' :: r) = '\n' from rfl)]
    show (listContinues r >>= _) = _
    rw [afterList_read h, Out.bind_ok, if_pos rfl]

theorem Names.peek {rest t m : Str} {ms : List Str} (hr : rest = [] ∨ CStr.peek rest ∈ c!" \t\n[") (h : Names rest (.name m) ms t) :
    t ++ rest = [] ∨ CStr.peek (t ++ rest) ∈ c!" \t\n[" := by
  cases h with
  | stop h =>
    rcases h with rfl | h | ⟨r, rfl, h⟩
    · exact .inl rfl
    · exact .inr (by rw [List.nil_append, h]; decide)
    · exact .inr (by show '\n' ∈ _; decide)
  | name hp => exact absurd hp (by simp [Place.names])
  | @space p w t ms hw hb h =>
    cases w with
    | nil => exact absurd rfl hw
    | cons x w => exact .inr (by have := hb x List.mem_cons_self; show x ∈ _; revert this; simp; tauto)
  | _ => exact .inr (by show '\n' ∈ _; decide)

theorem ListEnds.peek {rest : Str} (h : ListEnds rest) : rest = [] ∨ CStr.peek rest ∈ c!" \t\n[" := by
  rcases h with rfl | h | ⟨r, rfl, h⟩
  · exact .inl rfl
  · exact .inr (by rw [h]; decide)
  · exact .inr (by show '\n' ∈ _; decide)

theorem Names.rest {rest t : Str} {p : Place} {ms : List Str} (h : Names rest p ms t) : rest = [] ∨ CStr.peek rest ∈ c!" \t\n[" := by
  induction h with
  | stop h => exact h.peek
  | last h => exact h.imp id fun h => by rw [h]; decide
  | _ => assumption

/-- The fuel is enough for what follows the blanks. -/
def Enough (fuel : Nat) (s : Str) : Prop := ∀ n r, skipCharSpan s c!" \t" = .ok (n, r) → r.length < fuel

theorem Enough.of {fuel : Nat} {s : Str} (h : s.length < fuel) : Enough fuel s := by
  intro n r hr
  obtain ⟨v, hv, ⟨h1, h2⟩⟩ := rest_span s c!" \t"
  rw [hv] at hr
  cases hr
  simp only at h2
  omega

theorem Enough.len {fuel : Nat} {s : Str} (h : Enough fuel s) (hs : CStr.peek s ∉ c!" \t") : s.length < fuel :=
  h 0 s (skipSpan_append (a := []) (by simp) hs)

theorem Enough.pos {fuel : Nat} {s : Str} (h : Enough fuel s) : 0 < fuel := by
  obtain ⟨v, hv, -⟩ := rest_span s c!" \t"
  have := h _ _ hv
  omega

theorem Enough.blanks {fuel : Nat} {w s : Str} (hw : Blank w) (h : Enough fuel (w ++ s)) : Enough fuel s := by
  intro n r hr
  obtain ⟨n', r', h1, h2⟩ := span_blanks hw s
  rw [hr] at h1
  cases h1
  exact h _ _ h2

theorem names_read {rest t : Str} {p : Place} {ms : List Str} (h : Names rest p ms t) : ∀ (fuel : Nat) (mods : List Str) (size k : Nat),
    Enough fuel (t ++ rest) → mods.length + p.names.length < size → (p = .blank → k ≠ 0) → (∀ m, p = .name m → k = 0) →
    ∃ size', go fuel (mods ++ p.names) size k (t ++ rest) = .ok (mods ++ ms, size', rest) ∧ mods.length + ms.length < size' := by
  have hrest := h.rest
  induction h with
  | stop h =>
    intro fuel mods size k hf hsz _ _
    cases fuel with
    | zero => exact absurd hf.pos (by omega)
    | succ fuel => exact ⟨size, go_stop h, hsz⟩
  | @last m h hg =>
    intro fuel mods size k hf hsz _ hk
    cases fuel with
    | zero => exact absurd hf.pos (by omega)
    | succ fuel =>
      cases hk m rfl
      refine ⟨size, ?_, hsz⟩
      have hne : CStr.peek rest ≠ ' ' := by
        rcases h with rfl | h
        · decide
        · rw [h]; decide
      rw [show c!"\n" ++ rest = '\n' :: rest from rfl, go_word (by show '\n' ∉ c!" \t"; decide), modulesLoop,
        parseCspan_stop (.inr (by show '\n' ∈ _; decide)), Out.bind_ok]
      dsimp only
      rw [if_pos (show CStr.peek ('\n' :: rest) = '\n' from rfl)]
      show (listContinues rest >>= _) = _
      rw [goesOn_read hg, Out.bind_ok, if_neg (by simp), if_pos ⟨hne, rfl, by simp [Place.names]⟩,
        parseCspan_stop (h.imp id fun h => by rw [h]; decide), Out.bind_ok]
      rfl
  | @name p n t ms hp hn h ih =>
    intro fuel mods size k hf hsz _ _
    cases fuel with
    | zero => exact absurd hf.pos (by omega)
    | succ fuel =>
      rw [hp] at hsz ⊢
      obtain ⟨size', hs', hgo⟩ := go_name (fuel := fuel) (mods := mods) n (t ++ rest) hn (h.peek hrest) hsz
      rw [List.append_nil, List.append_assoc, hgo]
      have hpos := List.length_pos_iff.2 hn.1
      have hf := hf.len (by
        obtain ⟨hne, hn⟩ := hn
        cases n with
        | nil => exact absurd rfl hne
        | cons x n => exact fun hx => hn x List.mem_cons_self (by revert hx; simp [CStr.peek]; tauto))
      exact ih fuel mods size' 0 (.of (by simp at hf ⊢; omega)) hs' (by rintro ⟨⟩) (fun _ _ => rfl)
  | @space p w t ms hw hb h ih =>
    intro fuel mods size k hf hsz _ _
    rw [List.append_assoc, go_blanks hb]
    have hpos := List.length_pos_iff.2 hw
    obtain ⟨size', h1, h2⟩ := ih fuel (mods ++ p.names) size (k + w.length) (.blanks hb (by rwa [List.append_assoc] at hf)) (by simpa [Place.names] using hsz)
      (fun _ => by omega) (by rintro m ⟨⟩)
    refine ⟨size', ?_, by simp at h2 ⊢; omega⟩
    rw [← List.append_assoc, ← h1]
    simp [Place.names]
  | @newline t ms hg h ih =>
    intro fuel mods size k hf hsz hk _
    cases fuel with
    | zero => exact absurd hf.pos (by omega)
    | succ fuel =>
      rw [show c!"\n" ++ t ++ rest = '\n' :: (t ++ rest) from rfl, loop_newline hg (.inr (hk rfl))]
      exact ih fuel mods size 0 (.of (by have hf := hf.len (by show '\n' ∉ _; decide); simp at hf ⊢; omega)) hsz (by rintro ⟨⟩) (fun _ _ => rfl)
  | @indent m t ms hs h ih =>
    intro fuel mods size k hf hsz _ hk
    cases fuel with
    | zero => exact absurd hf.pos (by omega)
    | succ fuel =>
      have hs' : CStr.peek (t ++ rest) = ' ' := by
        cases t with
        | nil => exact absurd hs (by decide)
        | cons c t => exact hs
      rw [show c!"\n" ++ t ++ rest = '\n' :: (t ++ rest) from rfl, loop_newline (goesOn_peek (by rw [hs']; decide)) (.inl hs')]
      obtain ⟨size', h1, h2⟩ := ih fuel (mods ++ [m]) size 0 (.of (by have hf := hf.len (by show '\n' ∉ _; decide); simp at hf ⊢; omega)) (by simpa [Place.names] using hsz) (by rintro ⟨⟩) (fun _ _ => rfl)
      refine ⟨size', ?_, by simp at h2 ⊢; omega⟩
      simpa [Place.names] using h1
  | @broken m n t ms hn hg h ih =>
    intro fuel mods size k hf hsz _ hk
    cases fuel with
    | zero => exact absurd hf.pos (by omega)
    | succ fuel =>
      cases hk m rfl
      have hp : CStr.peek (n ++ t ++ rest) ∉ c!" \t\n[" := by
        obtain ⟨hne, hn⟩ := hn
        cases n with
        | nil => exact absurd rfl hne
        | cons x n => exact hn x List.mem_cons_self
      rw [show c!"\n" ++ (n ++ t) ++ rest = '\n' :: (n ++ t ++ rest) by simp, go_word (by show '\n' ∉ c!" \t"; decide), modulesLoop,
        parseCspan_stop (.inr (by show '\n' ∈ _; decide)), Out.bind_ok]
      dsimp only
      rw [if_pos (show CStr.peek ('\n' :: (n ++ t ++ rest)) = '\n' from rfl)]
      show ∃ size', (listContinues (n ++ t ++ rest) >>= _) = _ ∧ _
      rw [goesOn_read hg, Out.bind_ok, if_neg (by simp), if_pos ⟨of_peek hp (by decide), rfl, by simp [Place.names]⟩, List.append_assoc,
        parseCspan_append hn.2 (h.peek hrest) hn.1, Out.bind_ok]
      dsimp only
      have hpos := List.length_pos_iff.2 hn.1
      obtain ⟨size', h1, h2⟩ := ih fuel mods size 0 (.of (by have hf := hf.len (by show '\n' ∉ _; decide); simp at hf ⊢; omega)) hsz (by rintro ⟨⟩) (fun _ _ => rfl)
      refine ⟨size', ?_, h2⟩
      rw [← h1, go]
      simp [Place.names]

/-- **C57** (text): the module list of an oops gives exactly the modules that it names, whatever their number, and the rest of the text. -/
theorem C57_modules_text_partial {rest w t : Str} {ms : List Str} (hw : Blank w) (h : Names rest .line ms t) :
    parseModules (w ++ (c!"Modules linked in:" ++ (t ++ rest))) = .ok (some (ms, rest)) := by
  rw [parseModules, skipBlanks_read hw (by show 'M' ∉ c!" \t"; decide), Out.bind_ok, skipString_append, if_neg (by simp)]
  obtain ⟨n, hn, -⟩ := rest_span (t ++ rest) c!" \t"
  obtain ⟨size', h1, h2⟩ := names_read h (n.2.length + 1) [] 20 0 (by intro k r hk; rw [hn] at hk; cases hk; exact Nat.lt_succ_self _)
    (by decide) (by rintro ⟨⟩) (fun _ _ => rfl)
  rw [hn, Out.bind_ok]
  rw [go, hn, Out.bind_ok] at h1
  simp only [Nat.zero_add, Place.names, List.append_nil, List.nil_append] at h1
  rw [h1, Out.bind_ok]
  exact if_pos (by simpa using h2)

/-- `Modules linked in: a b(O)\n c lo\nng [last unloaded: d]`. -/
example : Names c!"[last unloaded: d]\n" .line [c!"a", c!"b(O)", c!"c", c!"long"] c!" a b(O)\n c lo\nng " :=
  .space (p := .line) (w := c!" ") (t := c!"a b(O)\n c lo\nng ") (by decide) (by decide) <|
  .name (n := c!"a") (t := c!" b(O)\n c lo\nng ") rfl (by decide) <|
  .space (p := .name c!"a") (w := c!" ") (t := c!"b(O)\n c lo\nng ") (by decide) (by decide) <|
  .name (n := c!"b(O)") (t := c!"\n c lo\nng ") rfl (by decide) <|
  .indent (t := c!" c lo\nng ") rfl <|
  .space (p := .line) (w := c!" ") (t := c!"c lo\nng ") (by decide) (by decide) <|
  .name (n := c!"c") (t := c!" lo\nng ") rfl (by decide) <|
  .space (p := .name c!"c") (w := c!" ") (t := c!"lo\nng ") (by decide) (by decide) <|
  .name (n := c!"lo") (t := c!"\nng ") rfl (by decide) <|
  .broken (n := c!"ng") (t := c!" ") (by decide) (goesOn_peek (by decide)) <|
  .space (p := .name c!"long") (w := c!" ") (t := []) (by decide) (by decide) <|
  .stop (p := .blank) (.inr (.inl rfl))

/-- A list of any length, for instance of 100 modules, with a `Pid:` line after it. -/
example (n : Nat) : Names c!"\nPid: 1, comm: x\n" .line (List.replicate n c!"kvm") (List.replicate n c!" kvm").flatten := by
  have h : ∀ n, Names c!"\nPid: 1, comm: x\n" (.name c!"kvm") (c!"kvm" :: List.replicate n c!"kvm") (List.replicate n c!" kvm").flatten := by
    intro n
    induction n with
    | zero => exact .stop (p := .name c!"kvm") (.inr (.inr ⟨_, rfl, .pid (r := c!"1, comm: x\n")⟩))
    | succ n ih =>
      exact .space (p := .name c!"kvm") (w := c!" ") (by decide) (by decide) (.name (n := c!"kvm") rfl (by decide) ih)
  cases n with
  | zero => exact .stop (p := .line) (.inr (.inr ⟨_, rfl, .pid (r := c!"1, comm: x\n")⟩))
  | succ n => exact .space (p := .line) (w := c!" ") (by decide) (by decide) (.name (n := c!"kvm") rfl (by decide) (h n))

/-- C57 does not hold if the line after the list does not begin with one of the known words: that line is taken for a part of the
list. Here the instruction pointer becomes three modules, the first of them glued to the last module. -/
theorem C57_not_list_end : parseModules c!"Modules linked in: kvm\nRIP: 1 f+0x1/0x2\n" =
    .ok (some ([c!"kvmRIP:", c!"1", c!"f+0x1/0x2"], [])) := by decide +kernel

/-! ## The taint letters -/

/-- The capital letters and the spaces. -/
def TaintChar (c : Char) : Prop := c = ' ' ∨ 'A' ≤ c ∧ c ≤ 'Z'

instance (c : Char) : Decidable (TaintChar c) := inferInstanceAs (Decidable (c = ' ' ∨ 'A' ≤ c ∧ c ≤ 'Z'))

theorem letterLoop_get {f : Koops.Flag} (hf : f ∈ Koops.flags) : ∀ (l b : Str) (t : Taints), (∀ c ∈ l, TaintChar c) → (b = [] ∨ ¬ TaintChar (peek b)) →
    f.get (Koops.letterLoop (l ++ b) t) = (l.contains f.letter || f.get t) := by
  have hsp : f.letter ≠ ' ' := by revert f; decide
  intro l
  induction l with
  | nil =>
    intro b t _ hb
    cases b with
    | nil => rfl
    | cons c b =>
      have hc : ¬ TaintChar c := by simpa [peek] using hb
      rw [List.nil_append, Koops.letterLoop, if_neg (fun h => hc (.inr h)), if_pos (fun h => hc (.inl h))]
      simp
  | cons c l ih =>
    intro b t hl hb
    have hl' := fun x hx => hl x (List.mem_cons_of_mem c hx)
    rw [List.cons_append, Koops.letterLoop]
    rcases hl c List.mem_cons_self with rfl | h
    · rw [if_neg (by decide), if_neg (by simp), ih b t hl' hb]
      simp [hsp]
    · rw [if_pos h, ih b _ hl' hb, Koops.get_setLetter hf]
      simp only [List.contains_cons]
      cases (f.letter == c) <;> cases (l.contains f.letter) <;> rfl

/-- **C57** (taint letters): a flag of the table is set exactly if its letter is among the capital letters and spaces that follow the
first `Tainted: ` of the text. -/
theorem C57_taint_text (s : Str) {f : Koops.Flag} (hf : f ∈ Koops.flags) : f.get (Koops.parseTaintFlags s {}) = true ↔
    ∃ a l b, s = a ++ (c!"Tainted: " ++ (l ++ b)) ∧ (∀ a' b', s = a' ++ (c!"Tainted: " ++ b') → a.length ≤ a'.length) ∧
      (∀ c ∈ l, TaintChar c) ∧ f.letter ∈ l := by
  have h0 : f.get {} = false := by revert f; decide
  unfold Koops.parseTaintFlags
  cases h : strstrI c!"Tainted: " s with
  | none =>
    have := strstrI_none h
    simp only [h0, Bool.false_eq_true, false_iff]
    rintro ⟨a, l, b, hs, -⟩
    exact this ⟨a, l ++ b, by rw [hs, List.append_assoc]⟩
  | some k =>
    obtain ⟨⟨a, r, hs, ha⟩, hmin⟩ := strstrI_some h
    have hd : s.drop (k + 9) = r := by
      rw [hs, ← ha, List.drop_append_of_le_length (by simp), List.drop_of_length_le (by simp), List.nil_append]
    dsimp only
    rw [hd]
    have hsplit : r = r.takeWhile (fun c => decide (TaintChar c)) ++ r.dropWhile (fun c => decide (TaintChar c)) := List.takeWhile_append_dropWhile.symm
    have hl : ∀ c ∈ r.takeWhile (fun c => decide (TaintChar c)), TaintChar c := fun c hc => by simpa using List.mem_takeWhile_imp hc
    have hb : r.dropWhile (fun c => decide (TaintChar c)) = [] ∨ ¬ TaintChar (peek (r.dropWhile (fun c => decide (TaintChar c)))) := by
      cases hr : r.dropWhile (fun c => decide (TaintChar c)) with
      | nil => exact .inl rfl
      | cons c b =>
        have := List.head_dropWhile_not (fun c => decide (TaintChar c)) (l := r) (by rw [hr]; simp)
        simp only [hr, List.head_cons, decide_eq_false_iff_not] at this
        exact .inr this
    rw [hsplit, letterLoop_get hf _ _ _ hl hb, h0, Bool.or_false, List.contains_iff_mem]
    constructor
    · intro hm
      refine ⟨a, _, _, by rw [← hsplit, hs, List.append_assoc], fun a' b' h' => ?_, hl, hm⟩
      rw [ha]
      exact hmin a' b' (by rw [h', List.append_assoc])
    · rintro ⟨a', l, b, hs', hmin', hl', hm⟩
      have h1 : a'.length ≤ a.length := hmin' a r (by rw [hs, List.append_assoc])
      have h2 : a.length ≤ a'.length := by rw [ha]; exact hmin a' (l ++ b) (by rw [hs', List.append_assoc])
      rw [hs, List.append_assoc] at hs'
      obtain ⟨-, h3⟩ := List.append_inj hs' (by omega)
      have h4 := List.append_cancel_left h3
      rw [h4, List.takeWhile_append_of_pos (fun c hc => by simpa using hl' c hc)]
      exact List.mem_append_left _ hm

/-- `Tainted: P  B` sets two flags, the letters of other words none. -/
example : Koops.parseTaintFlags c!"Pid: 1 Tainted: P   B 2.6 W\n" {} = { moduleProprietary := true, pageRelease := true } := by decide +kernel

end Satyr.Text.Koops
