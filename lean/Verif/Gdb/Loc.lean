import Verif.Gdb.LocMoves
import Verif.CStr.Exact
/-!
# C136: the place of an error in a gdb stack trace
-/
namespace Satyr.Gdb
open Satyr.CStr Satyr.Normalize Satyr.Frames

/-! ## Where reading stops -/

/-- The beginning of a frame: `#`, the number and spaces. -/
def FrameStart (a : Str) : Prop := ∃ ds v k, Number ds v ∧ a = '#' :: (ds ++ List.replicate (k + 1) ' ')

/-- No call can be read here, neither with an address nor without. -/
def NoCall (t : Str) : Prop := (∀ x r, addressInFunction t ≠ .ok (x, some r)) ∧ ∀ r, functionCall t ≠ .ok (some r)

/-- Reading a frame at `s` stops after `d` at `t`, for the reason `m`. -/
inductive HeaderStops : Str → Str → Str → Str → Prop
  | start {s : Str} : (∀ a t, FrameStart a → s ≠ a ++ t) → HeaderStops s [] s c!"Frame start sequence expected."
  | variant {a t : Str} : FrameStart a → peek t ≠ ' ' → NoCall t → ¬ c!"<signal handler called>" <+: t →
      HeaderStops (a ++ t) a t c!"Frame header variant not recognized."
  | file {a c t : Str} {nt : Str × Option Str} : FrameStart a → functionCall (c ++ t) = .ok (some (nt, t)) → fileLocation t = .ok none →
      HeaderStops (a ++ (c ++ t)) (a ++ c) t c!"Function call in the frame header misses mandatory \"at file.c:xy\" section"

/-- The first line of a thread up to its number and the number of the light-weight process. -/
inductive Numbered : Str → Nat → Prop
  | mk {ds l : Str} {tid k₁ k₂ v : Nat} (hd : Number ds v) (hl : LwpPart (2 ^ 32 - 1) l tid) :
      Numbered (c!"Thread" ++ (sp k₁ ++ (ds ++ (sp k₂ ++ l)))) tid

/-- Reading a thread at `s` stops after `d` at `t`, for the reason `m`. A thread whose first frame cannot be read stops before this
frame. -/
inductive ThreadStops : Str → Str → Str → Str → Prop
  | frame {s d t m : Str} : ¬ c!"Thread" <+: s → HeaderStops s d t m → ThreadStops s [] s m
  | space {t : Str} : peek t ≠ ' ' → ThreadStops (c!"Thread" ++ t) c!"Thread" t c!"Space expected after the \"Thread\" keyword."
  | number {k : Nat} {t : Str} : peek t ≠ ' ' → (∀ ds v u, Number ds v → IsDec (peek u) = false → t ≠ ds ++ u) →
      ThreadStops (c!"Thread" ++ sp k ++ t) (c!"Thread" ++ sp k) t c!"Thread number expected."
  | space2 {k v : Nat} {ds t : Str} : Number ds v → IsDec (peek t) = false → peek t ≠ ' ' →
      ThreadStops (c!"Thread" ++ sp k ++ ds ++ t) (c!"Thread" ++ sp k ++ ds) t c!"Space expected after the thread number."
  | id {a t : Str} {tid : Nat} : Numbered a tid → IsDec (peek t) = false →
      ThreadStops (a ++ c!"(Thread " ++ t) (a ++ c!"(Thread ") t c!"The thread identification number expected."
  | paren {a i l t : Str} {tid n k : Nat} : Numbered a tid → ThreadId i → LwpPart tid l n → peek t ≠ ')' →
      ThreadStops (a ++ c!"(Thread " ++ i ++ List.replicate k ' ' ++ l ++ t) (a ++ c!"(Thread " ++ i ++ List.replicate k ' ' ++ l) t
        c!"Closing parenthesis for Thread expected."
  | colon {a p t : Str} {tid n : Nat} : Numbered a tid → NamePart tid p n → ¬ c!":\n" <+: t →
      ThreadStops (a ++ p ++ t) (a ++ p) t c!"Expected a colon followed by a newline ':\\n'."
  | frames {h t d u m : Str} {number tid : Nat} : ThreadHeader h number tid → HeaderStops t d u m → ThreadStops (h ++ t) h t m

/-- Reading a stack trace `s` stops after `d` at `t`, for the reason `m`. -/
inductive TraceStops : Str → Str → Str → Str → Prop
  | nothing {s : Str} : (¬ ∃ a b, s = a ++ c!"\nThread " ++ b) → (¬ ∃ a b, s = a ++ c!"\n#" ++ b) →
      TraceStops s [] s c!"No frame and no thread found."
  | crash {p s d t m : Str} : FirstAt c!"\n#" (p ++ '\n' :: s) p s.tail → (∀ a b, p ++ '\n' :: s = a ++ c!"\nThread " ++ b → p.length < a.length) →
      HeaderStops s d t m → TraceStops (p ++ '\n' :: s) (p ++ '\n' :: d) t m
  | after {p s v r d t m : Str} {f : GdbFrame} : FirstAt c!"\n#" (p ++ '\n' :: s) p s.tail →
      (∀ a b, p ++ '\n' :: s = a ++ c!"\nThread " ++ b → p.length < a.length) →
      parseFrame s = .ok (some (f, r)) → s = v ++ r → ThreadStops r d t m → TraceStops (p ++ '\n' :: s) (p ++ '\n' :: (v ++ d)) t m
  | thread {p s r d t m : Str} : s = c!"Thread " ++ r → FirstAt c!"\nThread " (p ++ '\n' :: s) p r →
      (∀ a b, p ++ '\n' :: s = a ++ c!"\n#" ++ b → p.length < a.length) → ThreadStops s d t m → TraceStops (p ++ '\n' :: s) (p ++ '\n' :: d) t m

/-! ## Frames -/

/-- What is returned with a location is what is returned without; a failure has a reason and a place. -/
def Said {α : Type} (rest : α → Str) (stops : Str → Str → Str → Str → Prop) (s : Str) (l : Loc) (a : (Loc × Str) ⊕ (α × Loc)) (b : Option α) : Prop :=
  match a with
  | .inl (l', m) => b = none ∧ ∃ d t, s = d ++ t ∧ stops s d t m ∧ Moves l d l'
  | .inr (r, l') => b = some r ∧ ∃ d, s = d ++ rest r ∧ Moves l d l'

theorem start_none {s : Str} (h : frameStart s = .ok none) : ∀ a t, FrameStart a → s ≠ a ++ t := by
  rintro a t ⟨ds, v, k, hd, rfl⟩ rfl
  revert h
  unfold frameStart
  rw [List.cons_append, skipChar_cons (by decide), Out.bind_ok]
  dsimp only
  rw [if_neg (by simp), (parseUint32_iff (t := List.replicate (k + 1) ' ' ++ t) (n := ds.length) (v := v)).2
    ⟨ds, by simp, hd, rfl, by rw [List.replicate_succ]; show IsDec ' ' = false; decide⟩, Out.bind_ok]
  dsimp only
  rw [if_neg (by simpa using hd.nonempty)]
  obtain ⟨n, rest, h1, h2, h3⟩ := C27_char_sequence (List.replicate (k + 1) ' ' ++ t) ' ' (by decide)
  rw [h3, Out.bind_ok]
  dsimp only
  rw [if_neg]
  · simp
  · rintro rfl
    rw [List.replicate_zero, List.nil_append] at h1
    exact h2 _ (by rw [← h1]; rfl)

theorem start_some {s : Str} {n : Nat} {t : Str} (h : frameStart s = .ok (some (n, t))) : ∃ a, FrameStart a ∧ s = a ++ t ∧ peek t ≠ ' ' ∧ '\n' ∉ a := by
  unfold frameStart at h
  by_cases hp : peek s = '#'
  · obtain ⟨u, rfl⟩ := peek_split hp (by decide)
    rw [skipChar_cons (by decide), Out.bind_ok] at h
    dsimp only at h
    rw [if_neg (by simp)] at h
    rcases uint32_full u with ⟨ds, w, hu, hd, e⟩ | e
    · rw [e, Out.bind_ok] at h
      dsimp only at h
      rw [if_neg (by simpa using hd.1)] at h
      obtain ⟨k, rest, h1, h2, h3⟩ := C27_char_sequence w ' ' (by decide)
      rw [h3, Out.bind_ok] at h
      dsimp only at h
      split at h
      · cases h
      · next h0 =>
        cases h
        obtain ⟨j, rfl⟩ : ∃ j, k = j + 1 := ⟨k - 1, by omega⟩
        refine ⟨_, ⟨ds, _, j, ⟨hd.1, hd.2.1, rfl, hd.2.2⟩, rfl⟩, by rw [hu, h1]; simp, ?_, ?_⟩
        · intro hs
          obtain ⟨v, hv⟩ := peek_split hs (by decide)
          exact h2 v hv
        · intro hm
          simp only [List.mem_cons, List.mem_append, List.mem_replicate] at hm
          rcases hm with hm | hm | hm
          · exact absurd hm (by decide)
          · exact absurd (hd.2.1 _ hm) (by decide)
          · exact absurd hm.2 (by decide)
    · rw [e, Out.bind_ok] at h; cases h
  · rw [skipChar_not (by decide) hp, Out.bind_ok] at h; cases h

theorem skip_prefix {s a : Str} (h : (skipString s a).1 = 0) (ha : a ≠ []) : ¬ a <+: s := by
  rintro ⟨b, rfl⟩
  rcases skipString_cases (a ++ b) a with ⟨b', -, hs⟩ | hs
  · rw [hs] at h; exact ha (List.length_eq_zero_iff.1 h)
  · have := ((C27_string (a ++ b) a).1 b rfl).1
    rw [this] at h
    exact ha (List.length_eq_zero_iff.1 h)

theorem withoutL_said {n x : Nat} {a t : Str} (ha : FrameStart a) (hp : peek t ≠ ' ') (hn : NoNul t) (hx : addressInFunction t = .ok (x, none))
    {l l1 : Loc} (hm : Moves l a l1) :
    Along (Said (fun r => r.2) HeaderStops (a ++ t) l) (headerWithoutAddressL n x t l1) (headerWithoutAddress n x t) := by
  have hc := functionCallL_kept hn Loc.init
  unfold headerWithoutAddressL headerWithoutAddress
  generalize e1 : functionCallL t Loc.init = y1 at hc
  generalize e2 : functionCall t = y2 at hc
  cases hc with
  | abort => exact .abort
  | ub => exact .ub
  | ok hk =>
    rw [Out.bind_ok, Out.bind_ok]
    rcases hk.cases with ⟨rfl, rfl⟩ | ⟨⟨nt, u⟩, m, c, rfl, rfl, h1, m1⟩
    · dsimp only
      refine .ok ?_
      split
      · next h =>
        rcases skipString_cases t c!"<signal handler called>" with ⟨b, hb, hs⟩ | hs
        · rw [hs]
          exact ⟨rfl, a ++ c!"<signal handler called>", by dsimp only; rw [hb]; simp, hm.trans (Moves.right l1 c!"<signal handler called>")⟩
        · rw [hs] at h; exact absurd h (by simp)
      · next h =>
        refine ⟨rfl, a, t, rfl, .variant ha hp ⟨fun y r hy => ?_, fun r hr => ?_⟩ (skip_prefix (by omega) (by decide)), hm⟩
        · rw [hx] at hy; cases hy
        · rw [e2] at hr; cases hr
    · dsimp only at h1 ⊢
      have hnu : NoNul u := NoNul.suffix (by rw [h1] at hn; exact hn)
      have hf := fileLocationL_kept hnu Loc.init
      generalize e3 : fileLocationL u Loc.init = y3 at hf
      generalize e4 : fileLocation u = y4 at hf
      cases hf with
      | abort => exact .abort
      | ub => exact .ub
      | ok hk =>
        rw [Out.bind_ok, Out.bind_ok]
        rcases hk.cases with ⟨rfl, rfl⟩ | ⟨⟨file, line, w⟩, m', g, rfl, rfl, h3, m2⟩
        · refine .ok ⟨rfl, a ++ c, u, by rw [h1]; simp, ?_, hm.trans m1.inside⟩
          rw [h1]
          exact .file ha (h1 ▸ e2) e4
        · refine .ok ⟨rfl, a ++ c ++ g, ?_, (hm.trans m1.inside).trans m2.inside⟩
          dsimp only at h3 ⊢
          rw [h1, h3]; simp

theorem headerL_said {s : Str} (hn : NoNul s) (l : Loc) :
    Along (Said (fun r => r.2) HeaderStops s l) (parseHeaderL s l) (parseHeader s) := by
  unfold parseHeaderL parseHeader
  obtain ⟨o, ho, -⟩ := frameStart_yields s
  rw [ho, Out.bind_ok, Out.bind_ok]
  cases o with
  | none => exact .ok ⟨rfl, [], s, rfl, .start (start_none ho), Moves.refl l⟩
  | some r =>
    obtain ⟨n, t⟩ := r
    obtain ⟨a, ha, rfl, hp, -⟩ := start_some ho
    have hnt : NoNul t := NoNul.suffix hn
    dsimp only
    have hm : Moves l a (over l (a ++ t) t) := Moves.over rfl
    have hc := addressInFunctionL_kept hnt Loc.init
    generalize e1 : addressInFunctionL t Loc.init = y1 at hc
    generalize e2 : addressInFunction t = y2 at hc
    cases hc with
    | abort => exact .abort
    | ub => exact .ub
    | ok hk =>
      rename_i y1 y2
      obtain ⟨x, y1⟩ := y1
      obtain ⟨x', y2⟩ := y2
      obtain ⟨hx, hk⟩ := hk
      dsimp only at hx hk
      subst hx
      rw [Out.bind_ok, Out.bind_ok]
      rcases hk.cases with ⟨rfl, rfl⟩ | ⟨⟨nt, u⟩, m, c, rfl, rfl, h1, m1⟩
      · exact withoutL_said ha hp hnt e2 hm
      · dsimp only at h1 ⊢
        have hnu : NoNul u := NoNul.suffix (by rw [h1] at hnt; exact hnt)
        refine (fileLocationL_kept hnu Loc.init).bind fun y3 y4 hk => ?_
        rcases hk.cases with ⟨rfl, rfl⟩ | ⟨⟨file, line, w⟩, m', g, rfl, rfl, h3, m2⟩
        · exact .ok ⟨rfl, a ++ c, by dsimp only; rw [h1]; simp, hm.trans m1.inside⟩
        · refine .ok ⟨rfl, a ++ c ++ g, ?_, (hm.trans m1.inside).trans m2.inside⟩
          dsimp only at h3 ⊢
          rw [h1, h3]; simp

/-- The location after `d`, from `l` on. -/
def after (l : Loc) (d : Str) : Loc := l.add (locOf d).line (locOf d).column

theorem locOf_pos (d : Str) : 1 ≤ (locOf d).line := by simp [locOf]

theorem after_line (l : Loc) (d : Str) : (after l d).line = l.line + d.count '\n' := by
  unfold after Loc.add locOf
  dsimp only
  split
  · dsimp only; omega
  · dsimp only; omega

theorem after_nil (l : Loc) : after l [] = l := by simp [after, locOf, Loc.add]

theorem after_eat (l : Loc) (d : Str) (c : Char) : (after l d).eat c = after l (d ++ [c]) := by
  have h := locOf_pos d
  unfold after
  rw [← locOf_append_char]
  unfold Loc.eat
  by_cases hc : c = '\n'
  · rw [if_pos hc, if_pos hc]
    unfold Loc.add
    dsimp only
    rw [if_pos (show (locOf d).line + 1 > 1 by omega)]
    split <;> simp only [Loc.mk.injEq, and_true] <;> omega
  · rw [if_neg hc, if_neg hc]
    unfold Loc.add
    dsimp only
    split
    · rfl
    · dsimp only; rw [Int.add_assoc]

theorem after_plain (l : Loc) {d : Str} (h : '\n' ∉ d) : after l d = right l d.length := by
  have hl : locOf d = ⟨1, d.length⟩ := by
    unfold locOf
    rw [List.count_eq_zero.2 h, List.takeWhile_eq_self_iff.2]
    · simp
    · intro c hc; simp; rintro rfl; exact h (by simpa using hc)
  unfold after
  rw [hl]
  simp [right, Loc.add]

theorem after_newline (l : Loc) (d : Str) : after l (d ++ ['\n']) = ⟨l.line + d.count '\n' + 1, 0⟩ := by
  rw [← after_eat, Loc.eat, if_pos rfl, after_line]

theorem after_locOf (p d : Str) : after (locOf p) d = locOf (p ++ d) := C28_add p d

/-! ## Frames -/

theorem findNextL_eq (l : Loc) : ∀ (s d : Str), ∃ v, s = v ++ findNext s ∧ findNextL s (after l d) = after l (d ++ v)
  | [], d => ⟨[], rfl, by rw [List.append_nil]; rfl⟩
  | c :: s, d => by
    rw [findNext, findNextL]
    split
    · exact ⟨[], rfl, by rw [List.append_nil]⟩
    · obtain ⟨v, h1, h2⟩ := findNextL_eq l s (d ++ [c])
      refine ⟨c :: v, by rw [List.cons_append, ← h1], ?_⟩
      rw [after_eat, h2, List.append_assoc]; rfl

/-- The header that is read at `s`, if one is read, is on one line. -/
def HeaderLine (s : Str) : Prop := ∀ f h e, parseHeader s = .ok (some (f, e)) → s = h ++ e → '\n' ∉ h

/-- What is known of the location after a frame. -/
def FrameSaid (s : Str) (l : Loc) (a : (Loc × Str) ⊕ ((GdbFrame × Str) × Loc)) (b : Option (GdbFrame × Str)) : Prop :=
  match a with
  | .inl (l', m) => b = none ∧ ∃ d t, s = d ++ t ∧ HeaderStops s d t m ∧ Moves l d l'
  | .inr (r, l') => b = some r ∧ ∃ v, s = v ++ r.2 ∧ (after l v).line ≤ l'.line ∧
      (HeaderLine s → l'.line = (after l v).line ∧ (r.2 ≠ [] → l' = after l v))

theorem frameL_said {s : Str} (hn : NoNul s) (l : Loc) : Along (FrameSaid s l) (parseFrameL s l) (parseFrame s) := by
  have hh := headerL_said hn l
  unfold parseFrameL parseFrame
  generalize e1 : parseHeaderL s l = y1 at hh
  generalize e2 : parseHeader s = y2 at hh
  cases hh with
  | abort => exact .abort
  | ub => exact .ub
  | ok hk =>
    rename_i y1 y2
    rw [Out.bind_ok, Out.bind_ok]
    cases y1 with
    | inl e =>
      obtain ⟨l', m⟩ := e
      obtain ⟨rfl, hk⟩ := hk
      exact .ok ⟨rfl, hk⟩
    | inr r =>
      obtain ⟨⟨f, e⟩, l1⟩ := r
      obtain ⟨rfl, h, hs, hm⟩ := hk
      dsimp only at hs ⊢
      obtain ⟨v, hv, hl⟩ := findNextL_eq l1 s []
      rw [after_nil, List.nil_append] at hl
      have hline : HeaderLine s → l1 = right l h.length := fun ho => hm.2 (ho f h e e2 hs)
      rw [hl]
      obtain ⟨-, -, hc⟩ := findNext_cases s
      rcases hc with hc | hc
      · rw [hc] at hv ⊢
        refine .ok ⟨rfl, v, hv, ?_, fun ho => ⟨?_, fun h => absurd rfl h⟩⟩
        · rw [after_line, after_line]; have := hm.1; omega
        · rw [after_line, after_line, hline ho]; rfl
      · obtain ⟨t, ht⟩ := peek_split hc (by decide)
        rw [ht] at hv ⊢
        rw [peek_cons, if_neg (by decide), if_neg (by decide)]
        show Along _ (Out.ok t >>= _) (Out.ok t >>= _)
        rw [Out.bind_ok, Out.bind_ok, after_eat]
        refine .ok ⟨rfl, v ++ ['\n'], by dsimp only; rw [hv]; simp, ?_, fun ho => ?_⟩
        · rw [after_line, after_line]; have := hm.1; omega
        · have : after l1 (v ++ ['\n']) = after l (v ++ ['\n']) := by
            rw [after_newline, after_newline, hline ho]; rfl
          exact ⟨by rw [this], fun _ => this⟩

/-! ## Threads -/

theorem nl_dec {ds : Str} (h : ∀ c ∈ ds, IsDec c = true) : '\n' ∉ ds := fun hm => absurd (h _ hm) (by decide)

theorem nl_spaces (k : Nat) : '\n' ∉ List.replicate k ' ' := fun hm => absurd (List.eq_of_mem_replicate hm) (by decide)

theorem nl_append {a b : Str} (ha : '\n' ∉ a) (hb : '\n' ∉ b) : '\n' ∉ a ++ b := by
  rw [List.mem_append]; exact fun h => h.elim ha hb

theorem ThreadId.nl {i : Str} (h : ThreadId i) : '\n' ∉ i := by
  cases h with
  | hex h => exact nl_append (by decide) fun hm => absurd (h.2 _ hm) (by decide)
  | dec h => exact nl_dec h.2

theorem LwpPart.nl {l : Str} {tid n : Nat} (h : LwpPart tid l n) : '\n' ∉ l := by
  cases h with
  | none => simp
  | lwp h => exact nl_append (by decide) (nl_append (nl_dec h.2.1) (by decide))

theorem NamePart.nl {p : Str} {tid n : Nat} (h : NamePart tid p n) : '\n' ∉ p := by
  cases h with
  | none => simp
  | name hi hl => exact nl_append (by decide) (nl_append hi.nl (nl_append (nl_spaces _) (nl_append hl.nl (by decide))))

theorem Numbered.nl {a : Str} {tid : Nat} (h : Numbered a tid) : '\n' ∉ a := by
  cases h with
  | mk hd hl => exact nl_append (by decide) (nl_append (nl_spaces _) (nl_append (nl_dec hd.digits) (nl_append (nl_spaces _) hl.nl)))

theorem right_right (l : Loc) (a b : Str) : right (right l a.length) b.length = right l (a ++ b).length := by
  simp only [right, List.length_append, Loc.mk.injEq, true_and]; push_cast; omega

/-- The identification of a thread, and how long it is. -/
theorem id_full (s : Str) : Yields (skipThreadId s) fun r =>
    (r.1 = 0 ∧ IsDec (peek s) = false) ∨ ∃ i, s = i ++ r.2 ∧ ThreadId i ∧ r.1 = i.length ∧ r.1 ≠ 0 := by
  unfold skipThreadId
  by_cases h : ∃ c t, s = '0' :: 'x' :: c :: t ∧ IsHex c = true
  · obtain ⟨c, t, rfl, hc⟩ := h
    have e : '0' :: 'x' :: c :: t = c!"0x" ++ ((c :: t).takeWhile IsHex ++ (c :: t).dropWhile IsHex) := by
      rw [List.takeWhile_append_dropWhile]; rfl
    have hh : (c :: t).takeWhile IsHex ≠ [] ∧ ∀ x ∈ (c :: t).takeWhile IsHex, IsHex x = true :=
      ⟨by rw [List.takeWhile_cons, hc]; simp, fun x hx => List.mem_takeWhile_imp hx⟩
    rw [e, skipHex_read hh (dropWhile_peek (by decide) _), Out.bind_ok]
    dsimp only
    rw [if_neg (by omega)]
    exact .ok (.inr ⟨_, by dsimp only; rw [List.append_assoc], .hex hh, by rw [List.length_append]; rfl, by dsimp only; omega⟩)
  · rw [skipHex_other, Out.bind_ok]
    · dsimp only
      rw [if_pos rfl, skipCharSpan_eq, span10]
      by_cases h0 : s.takeWhile IsDec = []
      · refine .ok (.inl ⟨by rw [h0]; rfl, ?_⟩)
        cases s with
        | nil => rfl
        | cons c s =>
          rw [List.takeWhile_cons] at h0
          split at h0
          · cases h0
          · next hc => simpa using hc
      · exact .ok (.inr ⟨s.takeWhile IsDec, by dsimp only; rw [List.takeWhile_append_dropWhile],
          .dec ⟨h0, fun x hx => List.mem_takeWhile_imp hx⟩, rfl, by simpa using h0⟩)
    · intro c t he
      cases hc : IsHex c with
      | false => rfl
      | true => exact absurd ⟨c, t, he, hc⟩ h

/-- What is known of a failure in the first line of a thread. -/
def LineSaid (s : Str) (l : Loc) (e : Loc × Str) : Prop :=
  ∃ d t, s = d ++ t ∧ ThreadStops s d t e.2 ∧ e.1.line = (after l d).line ∧ (e.2 ≠ c!"Expected a colon followed by a newline ':\\n'." → e.1 = after l d)

theorem LineSaid.mk {l l' : Loc} {d t m : Str} (h : ThreadStops (d ++ t) d t m) (hd : '\n' ∉ d) (hl : l' = right l d.length) :
    LineSaid (d ++ t) l (l', m) :=
  ⟨d, t, rfl, h, by rw [after_plain l hd, hl], fun _ => by rw [after_plain l hd, hl]⟩

theorem sectionL_said {a : Str} {tid : Nat} (ha : Numbered a tid) (s : Str) (l : Loc) :
    Along (fun x y => match x with
      | .inl e => y = none ∧ LineSaid (a ++ s) l e
      | .inr (r, l') => y = some r ∧ ∃ p, s = p ++ r.2 ∧ NamePart tid p r.1 ∧ l'.line = l.line)
      (threadSectionL tid s (right l a.length)) (threadSection tid s) := by
  unfold threadSectionL threadSection
  rcases skipString_cases s c!"(Thread " with ⟨b, hb, hs⟩ | hs
  · rw [hs, if_neg (by simp), if_neg (by simp)]
    dsimp only
    obtain ⟨d, e1, hd⟩ := id_full b
    rw [e1, Out.bind_ok, Out.bind_ok]
    have hl1 : right (right l a.length) c!"(Thread ".length = right l (a ++ c!"(Thread ").length := right_right l a c!"(Thread "
    rw [hl1]
    rcases hd with ⟨h0, hp⟩ | ⟨i, hi, hi2, hi3, h0⟩
    · rw [if_pos h0, if_pos h0]
      refine .ok ⟨rfl, ?_⟩
      rw [hb, ← List.append_assoc]
      exact .mk (.id ha hp) (nl_append ha.nl (by decide)) rfl
    · rw [if_neg h0, if_neg h0, hi3]
      obtain ⟨w, e2, hw⟩ := skipCharSequence_yields d.2 (c := ' ') (by decide)
      rw [e2, Out.bind_ok, Out.bind_ok]
      unfold optLwpL
      obtain ⟨r, e3, x, hx, hx2⟩ := lwp_yields tid w.2
      rw [e3, Out.bind_ok, Out.bind_ok, Out.bind_ok]
      dsimp only
      have hl2 : over (right (right (right l (a ++ c!"(Thread ").length) i.length) w.1) w.2 r.2 =
          right l (a ++ c!"(Thread " ++ i ++ List.replicate w.1 ' ' ++ x).length := by
        rw [over_eq hx, right_right]
        have := right_right l (a ++ c!"(Thread " ++ i) (List.replicate w.1 ' ')
        rw [List.length_replicate] at this
        rw [this, right_right]
      rw [hl2]
      have hnl : '\n' ∉ a ++ c!"(Thread " ++ i ++ List.replicate w.1 ' ' ++ x :=
        nl_append (nl_append (nl_append (nl_append ha.nl (by decide)) hi2.nl) (nl_spaces _)) hx2.nl
      by_cases hc : peek r.2 = ')'
      · obtain ⟨t, ht⟩ := peek_split hc (by decide)
        rw [ht, skipChar_cons (by decide), Out.bind_ok, Out.bind_ok]
        refine .ok ⟨rfl, _, ?_, .name (k := w.1) hi2 hx2, rfl⟩
        rw [hb, hi, hw, hx, ht]
        simp
      · rw [skipChar_not (by decide) hc, Out.bind_ok, Out.bind_ok]
        refine .ok ⟨rfl, ?_⟩
        have : a ++ s = a ++ c!"(Thread " ++ i ++ List.replicate w.1 ' ' ++ x ++ r.2 := by rw [hb, hi, hw, hx]; simp
        rw [this]
        exact .mk (.paren ha hi2 hx2 hc) hnl rfl
  · rw [hs]
    exact .ok ⟨rfl, [], rfl, .none, rfl⟩

theorem spaces_eq {n : Nat} (h : ¬ n = 0) : List.replicate n ' ' = sp (n - 1) := by
  unfold sp; rw [show n - 1 + 1 = n by omega]

theorem number_none {s : Str} (h : parseUint32 s = .ok (0, none, s)) : ∀ ds v u, Number ds v → IsDec (peek u) = false → s ≠ ds ++ u := by
  rintro ds v u hd hu rfl
  have := (parseUint32_iff (s := ds ++ u) (t := u) (n := ds.length) (v := v)).2 ⟨ds, rfl, hd, rfl, hu⟩
  rw [h] at this
  simp at this

theorem peek_not_space {t : Str} (h : ∀ u, t ≠ ' ' :: u) : peek t ≠ ' ' := by
  intro hp
  obtain ⟨u, hu⟩ := peek_split hp (by decide)
  exact h u hu

theorem threadHeaderL_said (s : Str) (l : Loc) :
    Along (fun x y => match x with
      | .inl e => y = none ∧ LineSaid (c!"Thread" ++ s) l e
      | .inr (r, l') => y = some r ∧ ∃ h, c!"Thread" ++ s = h ++ r.2.2 ∧ ThreadHeader h r.1 r.2.1 ∧ l' = after l h)
      (threadHeaderL s (right l c!"Thread".length)) (threadHeader s) := by
  unfold threadHeaderL threadHeader
  obtain ⟨n, rest, hw, hne, e1⟩ := C27_char_sequence s ' ' (by decide)
  rw [e1, Out.bind_ok, Out.bind_ok]
  dsimp only
  by_cases h0 : n = 0
  · rw [if_pos h0, if_pos h0]
    refine .ok ⟨rfl, ?_⟩
    subst h0
    rw [List.replicate_zero, List.nil_append] at hw
    subst hw
    exact .mk (.space (peek_not_space hne)) (by decide) (by simp [right])
  rw [if_neg h0, if_neg h0]
  rw [spaces_eq h0] at hw
  have hl1 : right (right l c!"Thread".length) n = right l (c!"Thread" ++ sp (n - 1)).length := by
    rw [← right_right]
    unfold sp
    rw [List.length_replicate, show n - 1 + 1 = n by omega]
  rw [hl1]
  rcases uint32_full rest with ⟨ds, u, hu, hd, e2⟩ | e2
  swap
  · rw [e2, Out.bind_ok, Out.bind_ok]
    refine .ok ⟨rfl, ?_⟩
    rw [hw, ← List.append_assoc]
    exact .mk (.number (peek_not_space hne) (number_none e2)) (nl_append (by decide) (nl_spaces _)) (by simp [right])
  have hd' : Number ds (decValue ds) := ⟨hd.1, hd.2.1, rfl, hd.2.2⟩
  have hdu : IsDec (peek u) = false := by
    obtain ⟨d', h1, h2, h3, h4⟩ := parseUint32_iff.1 e2
    exact h4
  rw [e2, Out.bind_ok, Out.bind_ok]
  dsimp only
  rw [if_neg (by simpa using hd.1), if_neg (by simpa using hd.1), right_right]
  obtain ⟨n2, rest2, hw2, hne2, e3⟩ := C27_char_sequence u ' ' (by decide)
  rw [e3, Out.bind_ok, Out.bind_ok]
  dsimp only
  by_cases h02 : n2 = 0
  · rw [if_pos h02, if_pos h02]
    refine .ok ⟨rfl, ?_⟩
    subst h02
    rw [List.replicate_zero, List.nil_append] at hw2
    subst hw2
    have : c!"Thread" ++ s = c!"Thread" ++ sp (n - 1) ++ ds ++ u := by rw [hw, hu]; simp
    rw [this]
    exact .mk (.space2 hd' hdu (peek_not_space hne2)) (nl_append (nl_append (by decide) (nl_spaces _)) (nl_dec hd.2.1)) (by simp [right])
  rw [if_neg h02, if_neg h02]
  rw [spaces_eq h02] at hw2
  have hl2 : right (right l (c!"Thread" ++ sp (n - 1) ++ ds).length) n2 = right l (c!"Thread" ++ sp (n - 1) ++ ds ++ sp (n2 - 1)).length := by
    rw [← right_right l (c!"Thread" ++ sp (n - 1) ++ ds)]
    unfold sp
    rw [List.length_replicate, show n2 - 1 + 1 = n2 by omega]
  rw [hl2]
  unfold optLwpL
  obtain ⟨r, e4, x, hx, hx2⟩ := lwp_yields (2 ^ 32 - 1) rest2
  rw [e4, Out.bind_ok, Out.bind_ok, Out.bind_ok]
  dsimp only
  rw [over_eq hx, right_right]
  have ha : Numbered (c!"Thread" ++ sp (n - 1) ++ ds ++ sp (n2 - 1) ++ x) r.1 := by
    have := Numbered.mk (k₁ := n - 1) (k₂ := n2 - 1) hd' hx2
    simpa using this
  have hs : c!"Thread" ++ s = c!"Thread" ++ sp (n - 1) ++ ds ++ sp (n2 - 1) ++ x ++ r.2 := by rw [hw, hu, hw2, hx]; simp
  refine (sectionL_said ha r.2 l).bind fun y1 y2 hy => ?_
  cases y1 with
  | inl e =>
    obtain ⟨rfl, hy⟩ := hy
    rw [hs]
    exact .ok ⟨rfl, hy⟩
  | inr q =>
    obtain ⟨⟨tid, v⟩, l'⟩ := q
    obtain ⟨rfl, p, hp, hp2, hl⟩ := hy
    dsimp only at hp hp2 ⊢
    have hnl := nl_append ha.nl hp2.nl
    have hs2 : c!"Thread" ++ s = c!"Thread" ++ sp (n - 1) ++ ds ++ sp (n2 - 1) ++ x ++ p ++ v := by rw [hs, hp]; simp
    rcases skipString_cases v c!":\n" with ⟨y, hy, hv⟩ | hv
    · rw [hv, if_neg (by simp), if_neg (by simp)]
      refine .ok ⟨rfl, c!"Thread" ++ sp (n - 1) ++ ds ++ sp (n2 - 1) ++ x ++ p ++ c!":\n", by dsimp only; rw [hs2, hy]; simp, ?_, ?_⟩
      · have := ThreadHeader.mk (k₁ := n - 1) (k₂ := n2 - 1) hd hx2 hp2
        simpa using this
      · rw [show ∀ z : Str, z ++ c!":\n" = z ++ [':'] ++ ['\n'] from fun z => by simp, after_newline,
          List.count_eq_zero.2 (nl_append hnl (by decide))]
        simp [Loc.add, hl]
    · rw [hv, if_pos rfl, if_pos rfl]
      refine .ok ⟨rfl, _, v, hs2, ?_, ?_, fun h => absurd rfl h⟩
      · rw [hs2]
        refine .colon ha hp2 (skip_prefix ?_ (by decide))
        rw [hv]
      · rw [after_plain l hnl]; exact hl

/-- What is known of a failure to read a thread. -/
theorem threadFramesL_said (number tid : Nat) {s : Str} (hn : NoNul s) (l : Loc) :
    Along (fun x y => match x with
      | .inl (l', m) => y = none ∧ l' = l ∧ ∃ d t, HeaderStops s d t m
      | .inr r => y = some r) (threadFramesL number tid s l) (threadFrames number tid s) := by
  have h1 := frameL_said hn Loc.init
  unfold threadFramesL threadFrames
  rw [framesLoop]
  generalize parseFrameL s Loc.init = y1 at h1
  generalize parseFrame s = y2 at h1
  cases h1 with
  | abort => exact .abort
  | ub => exact .ub
  | ok hk =>
    rename_i y1 y2
    rw [Out.bind_ok, Out.bind_ok]
    cases y1 with
    | inl e =>
      obtain ⟨l', m⟩ := e
      obtain ⟨rfl, d, t, -, hd, -⟩ := hk
      exact .ok ⟨rfl, rfl, d, t, hd⟩
    | inr r =>
      obtain ⟨⟨f, t⟩, l'⟩ := r
      obtain ⟨rfl, -⟩ := hk
      dsimp only
      cases framesLoop s.length t with
      | abort => exact .abort
      | ub => exact .ub
      | ok q => exact .ok rfl

theorem threadL_said {s : Str} (hn : NoNul s) (l : Loc) :
    Along (fun x y => match x with
      | .inl e => y = none ∧ LineSaid s l e
      | .inr r => y = some r) (parseThreadL s l) (parseThread s) := by
  unfold parseThreadL parseThread
  by_cases h0 : (skipString s c!"Thread").1 = 0
  · rw [if_pos h0, if_pos h0]
    refine (threadFramesL_said 0 (2 ^ 32 - 1) hn l).mono fun x y h => ?_
    cases x with
    | inr r => exact h
    | inl e =>
      obtain ⟨l', m⟩ := e
      obtain ⟨rfl, rfl, d, t, hd⟩ := h
      exact ⟨rfl, [], s, rfl, .frame (skip_prefix h0 (by decide)) hd, by rw [after_nil], fun _ => by rw [after_nil]⟩
  · rw [if_neg h0, if_neg h0]
    rcases skipString_cases s c!"Thread" with ⟨b, rfl, hs⟩ | hs
    swap
    · rw [hs] at h0; exact absurd rfl h0
    rw [hs]
    refine (threadHeaderL_said b l).bind fun x y h => ?_
    cases x with
    | inl e =>
      obtain ⟨rfl, h⟩ := h
      exact .ok ⟨rfl, h⟩
    | inr r =>
      obtain ⟨⟨number, tid, t⟩, l'⟩ := r
      obtain ⟨rfl, hd, h1, h2, rfl⟩ := h
      dsimp only at h1 h2 ⊢
      rw [h1] at hn ⊢
      refine (threadFramesL_said number tid (NoNul.suffix hn) (after l hd)).mono fun x y h => ?_
      cases x with
      | inr r => exact h
      | inl e =>
        obtain ⟨l', m⟩ := e
        obtain ⟨rfl, rfl, d, u, h3⟩ := h
        exact ⟨rfl, hd, t, rfl, .frames h2 h3, rfl, fun _ => rfl⟩

/-! ## Stack traces -/

theorem strstr_agree (s : Str) {c : Char} {n : Str} (hn : NoNul (c :: n)) :
    (strstrI (c :: n) s = none ∧ (¬ ∃ a b, s = a ++ (c :: n) ++ b) ∧ (strstrLocation s (c :: n)).1 = none) ∨
      ∃ p r, FirstAt (c :: n) s p r ∧ strstrI (c :: n) s = some p.length ∧ strstrLocation s (c :: n) = (some (c :: (n ++ r)), locOf p) ∧
        s.drop (p.length + 1) = n ++ r := by
  cases h : strstrI (c :: n) s with
  | none =>
    have h1 := strstrI_none h
    exact .inl ⟨rfl, h1, (C28_strstr s (c :: n) (by simp) hn).2 h1⟩
  | some i =>
    obtain ⟨⟨p, r, h1, rfl⟩, h2⟩ := strstrI_some h
    refine .inr ⟨p, r, ⟨h1, h2⟩, rfl, (C28_strstr s (c :: n) (by simp) hn).1 p r h1 h2, ?_⟩
    have : s = p ++ [c] ++ (n ++ r) := by rw [h1]; simp
    rw [this, List.drop_left' (by simp)]

theorem nextLine_init (p : Str) : nextLine Loc.init (locOf p) = locOf (p ++ ['\n']) := by
  have := locOf_pos p
  rw [← locOf_append_char]
  unfold nextLine Loc.add Loc.eat
  rw [if_pos (by omega), if_pos rfl]
  simp [Loc.init]; omega

/-- No frame that is read at the beginning of a line of the text has its header on two lines, and no call without a file either. -/
def OneLine (inp : Str) : Prop :=
  ∀ p s, inp = p ++ '\n' :: s → HeaderLine s ∧
    ∀ a c t nt, FrameStart a → s = a ++ (c ++ t) → functionCall (c ++ t) = .ok (some (nt, t)) → '\n' ∉ c

theorem FrameStart.nl {a : Str} (h : FrameStart a) : '\n' ∉ a := by
  obtain ⟨ds, v, k, hd, rfl⟩ := h
  exact nl_append (a := c!"#") (by decide) (nl_append (nl_dec hd.digits) (nl_spaces _))

theorem HeaderStops.nl {s d t m : Str} (h : HeaderStops s d t m) :
    (m ≠ c!"Function call in the frame header misses mandatory \"at file.c:xy\" section" → '\n' ∉ d) ∧
    ((∀ a c t nt, FrameStart a → s = a ++ (c ++ t) → functionCall (c ++ t) = .ok (some (nt, t)) → '\n' ∉ c) → '\n' ∉ d) := by
  cases h with
  | start h => exact ⟨fun _ => by simp, fun _ => by simp⟩
  | variant h => exact ⟨fun _ => h.nl, fun _ => h.nl⟩
  | file h h1 h2 => exact ⟨fun h => absurd rfl h, fun ho => nl_append h.nl (ho _ _ _ _ h rfl h1)⟩

/-- What is known of a failure to read a stack trace. -/
def TraceSaid (inp : Str) (e : Loc × Str) : Prop :=
  ∃ d t, inp = d ++ t ∧ TraceStops inp d t e.2 ∧
    (e.2 ≠ c!"Function call in the frame header misses mandatory \"at file.c:xy\" section" → (locOf d).line ≤ e.1.line) ∧
    (OneLine inp → e.1.line = (locOf d).line ∧ (t ≠ [] → e.2 ≠ c!"Expected a colon followed by a newline ':\\n'." → e.1 = locOf d))

/-- What is known of the location after the header of a stack trace: the crash frame is at the beginning of a line, or there is none. -/
def HeaderSaid (inp : Str) (x : (Loc × Str) ⊕ ((Option GdbFrame × Str) × Loc)) (y : Option (Option GdbFrame × Str)) : Prop :=
  match x with
  | .inl e => y = none ∧ TraceSaid inp e
  | .inr (r, l) => y = some r ∧ ∃ d, inp = d ++ r.2 ∧ (locOf d).line ≤ l.line ∧
      (OneLine inp → l.line = (locOf d).line ∧ (r.2 ≠ [] → l = locOf d)) ∧
      ∀ d' t m, ThreadStops r.2 d' t m → TraceStops inp (d ++ d') t m

theorem crashL_said {inp p s : Str} (hn : NoNul inp) (h : inp = p ++ '\n' :: s) (h1 : FirstAt c!"\n#" (p ++ '\n' :: s) p s.tail)
    (h2 : ∀ a b, p ++ '\n' :: s = a ++ c!"\nThread " ++ b → p.length < a.length) :
    Along (HeaderSaid inp) (crashFrameL s (locOf (p ++ ['\n']))) (parseFrame s >>= fun r => .ok (r.map fun q => (some q.1, q.2))) := by
  subst h
  have hns : NoNul s := NoNul.suffix (a := p ++ ['\n']) (by simpa using hn)
  have hf := frameL_said hns (locOf (p ++ ['\n']))
  unfold crashFrameL
  generalize e1 : parseFrameL s (locOf (p ++ ['\n'])) = y1 at hf
  generalize e2 : parseFrame s = y2 at hf
  cases hf with
  | abort => exact .abort
  | ub => exact .ub
  | ok hk =>
    rename_i y1 y2
    rw [Out.bind_ok, Out.bind_ok]
    cases y1 with
    | inl e =>
      obtain ⟨l', m⟩ := e
      obtain ⟨rfl, d, t, hd, hs, hm⟩ := hk
      refine .ok ⟨rfl, p ++ '\n' :: d, t, by rw [hd]; simp, .crash h1 h2 hs, ?_, fun ho => ?_⟩
      · intro hne
        have h3 := hs.nl.1 hne
        dsimp only
        rw [show p ++ '\n' :: d = p ++ ['\n'] ++ d by simp, ← after_locOf, after_plain _ h3]
        exact hm.1
      · have h3 := hs.nl.2 (ho p s rfl).2
        have : l' = locOf (p ++ '\n' :: d) := by
          rw [show p ++ '\n' :: d = p ++ ['\n'] ++ d by simp, ← after_locOf, after_plain _ h3]
          exact hm.2 h3
        exact ⟨by dsimp only; rw [this], fun _ _ => this⟩
    | inr r =>
      obtain ⟨⟨f, t⟩, l'⟩ := r
      obtain ⟨rfl, v, hv, h3, h4⟩ := hk
      dsimp only at hv h4 ⊢
      refine .ok ⟨rfl, p ++ '\n' :: v, by dsimp only; rw [hv]; simp, ?_, fun ho => ?_, ?_⟩
      · rw [show p ++ '\n' :: v = p ++ ['\n'] ++ v by simp, ← after_locOf]; exact h3
      · rw [show p ++ '\n' :: v = p ++ ['\n'] ++ v by simp, ← after_locOf]
        exact h4 (ho p s rfl).1
      · intro d' t' m hs
        rw [show p ++ '\n' :: v ++ d' = p ++ '\n' :: (v ++ d') by simp]
        exact .after h1 h2 e2 hv hs

theorem strstr_pair {s n : Str} (h : (strstrLocation s n).1 = none) : ∃ l, strstrLocation s n = (none, l) := by
  cases e : strstrLocation s n with
  | mk a b => rw [e] at h; cases h; exact ⟨b, rfl⟩

theorem threadStart_said {inp p r : Str} (h : FirstAt c!"\nThread " inp p r) (h2 : ∀ a b, inp = a ++ c!"\n#" ++ b → p.length < a.length) :
    HeaderSaid inp (.inr ((none, c!"Thread " ++ r), locOf (p ++ ['\n']))) (some (none, c!"Thread " ++ r)) := by
  have e : inp = p ++ '\n' :: (c!"Thread " ++ r) := by rw [h.1]; simp
  refine ⟨rfl, p ++ ['\n'], by rw [e]; simp, Int.le_refl _, fun _ => ⟨rfl, fun _ => rfl⟩, fun d' t m hs => ?_⟩
  rw [e] at h h2 ⊢
  rw [List.append_assoc]
  exact .thread rfl h h2 hs

theorem traceHeaderL_said {inp : Str} (hn : NoNul inp) : Along (HeaderSaid inp) (parseTraceHeaderL inp Loc.init) (parseTraceHeader inp) := by
  unfold parseTraceHeaderL parseTraceHeader
  rcases strstr_agree inp (c := '\n') (n := c!"Thread ") (by simp [NoNul]) with ⟨h1, h2, h3⟩ | ⟨p, r, h1, h2, h3, h4⟩
  · obtain ⟨lt, h3⟩ := strstr_pair h3
    rcases strstr_agree inp (c := '\n') (n := c!"#") (by simp [NoNul]) with ⟨g1, g2, g3⟩ | ⟨q, u, g1, g2, g3, g4⟩
    · obtain ⟨lf, g3⟩ := strstr_pair g3
      rw [h1, h3, g1, g3]
      exact .ok ⟨rfl, [], inp, rfl, .nothing h2 g2, fun _ => Int.le_refl _, fun _ => ⟨rfl, fun _ _ => rfl⟩⟩
    · rw [h1, h3, g2, g3]
      dsimp only [List.tail_cons]
      rw [g4, nextLine_init]
      have e : inp = q ++ '\n' :: (c!"#" ++ u) := by rw [g1.1]; simp
      refine crashL_said hn e (by rw [← e]; exact g1) fun a b hab => absurd ⟨a, b, by rw [← hab]; exact e⟩ h2
  · rcases strstr_agree inp (c := '\n') (n := c!"#") (by simp [NoNul]) with ⟨g1, g2, g3⟩ | ⟨q, u, g1, g2, g3, g4⟩
    · obtain ⟨lf, g3⟩ := strstr_pair g3
      rw [h2, h3, g1, g3]
      dsimp only [List.tail_cons]
      rw [h4, nextLine_init]
      exact .ok (threadStart_said h1 fun a b hab => absurd ⟨a, b, hab⟩ g2)
    · rw [h2, h3, g2, g3]
      dsimp only
      rw [h4, g4, nextLine_init, nextLine_init]
      have l1 := congrArg List.length h1.1
      have l2 := congrArg List.length g1.1
      simp only [List.length_append] at l1 l2
      have hiff : ('\n' :: (c!"Thread " ++ r)).tail.length < ('\n' :: (c!"#" ++ u)).tail.length ↔ q.length + 1 < p.length + 1 := by
        simp only [List.tail_cons, List.length_append, List.length_cons, List.length_nil] at l1 l2 ⊢
        omega
      have e : inp = q ++ '\n' :: (c!"#" ++ u) := by rw [g1.1]; simp
      by_cases hq : q.length + 1 < p.length + 1
      · rw [if_pos hq, if_pos (hiff.2 hq)]
        show Along (HeaderSaid inp) (crashFrameL (c!"#" ++ u) (locOf (q ++ ['\n']))) _
        refine crashL_said hn e (by rw [← e]; exact g1) fun a b hab => ?_
        have := h1.2 a b (by rw [← hab]; exact e)
        omega
      · rw [if_neg hq, if_neg (fun h => hq (hiff.1 h))]
        refine .ok (threadStart_said h1 fun a b hab => ?_)
        have h5 := g1.2 a b hab
        by_contra hc
        have h6 : p.length = a.length := by omega
        have h7 := h1.1
        rw [hab, List.append_assoc, List.append_assoc] at h7
        obtain ⟨-, h8⟩ := List.append_inj h7 h6.symm
        simp at h8

theorem traceL_said {inp : Str} (hn : NoNul inp) :
    Along (fun x y => match x with
      | .inl e => y = none ∧ TraceSaid inp e
      | .inr r => y = some r) (parseTraceL inp Loc.init) (parseTrace inp) := by
  unfold parseTraceL parseTrace
  refine (Along.self _).bind fun libs libs' hl => ?_
  subst hl
  refine (traceHeaderL_said hn).bind fun x y h => ?_
  cases x with
  | inl e =>
    obtain ⟨rfl, h⟩ := h
    exact .ok ⟨rfl, h⟩
  | inr r =>
    obtain ⟨⟨crash, t⟩, l⟩ := r
    obtain ⟨rfl, d, hd, h1, h2, h3⟩ := h
    dsimp only at hd h2 h3 ⊢
    have ht := threadL_said (s := t) (NoNul.suffix (by rw [hd] at hn; exact hn)) l
    rw [threadsLoop]
    generalize parseThreadL t l = y1 at ht
    generalize parseThread t = y2 at ht
    cases ht with
    | abort => exact .abort
    | ub => exact .ub
    | ok hk =>
      rename_i y1 y2
      rw [Out.bind_ok, Out.bind_ok]
      cases y1 with
      | inr q =>
        obtain ⟨th, u⟩ := q
        cases hk
        dsimp only
        cases threadsLoop t.length u with
        | abort => exact .abort
        | ub => exact .ub
        | ok q => exact .ok rfl
      | inl e =>
        obtain ⟨rfl, d', t', hs, hs2, hl1, hl2⟩ := hk
        refine .ok ⟨rfl, d ++ d', t', by rw [hd, hs]; simp, h3 _ _ _ hs2, fun _ => ?_, fun ho => ?_⟩
        · rw [hl1, after_line, ← after_locOf, after_line]; omega
        · obtain ⟨h4, h5⟩ := h2 ho
          refine ⟨by rw [hl1, after_line, ← after_locOf, after_line, h4], fun hne hm => ?_⟩
          have : t ≠ [] := by rintro rfl; rw [eq_comm, List.append_eq_nil_iff] at hs; exact hne hs.2
          rw [hl2 hm, h5 this, after_locOf]

/-- C136, gdb: a text gets an error message exactly if it is not read. -/
theorem C136_gdb_read {inp : Str} (hn : NoNul inp) :
    (∀ t, parseText inp = .ok (.inl t) ↔ ∃ rest, parseTrace inp = .ok (some (t, rest))) ∧
    ((∃ text, parseText inp = .ok (.inr text)) ↔ parseTrace inp = .ok none) := by
  have h := traceL_said hn
  unfold parseText
  generalize parseTraceL inp Loc.init = y1 at h
  generalize parseTrace inp = y2 at h
  cases h with
  | abort => exact ⟨fun t => ⟨fun h => (by cases h), fun ⟨_, h⟩ => (by cases h)⟩, ⟨fun ⟨_, h⟩ => (by cases h), fun h => (by cases h)⟩⟩
  | ub => exact ⟨fun t => ⟨fun h => (by cases h), fun ⟨_, h⟩ => (by cases h)⟩, ⟨fun ⟨_, h⟩ => (by cases h), fun h => (by cases h)⟩⟩
  | ok hk =>
    rename_i y1 y2
    rw [Out.bind_ok]
    cases y1 with
    | inl e =>
      obtain ⟨l, m⟩ := e
      obtain ⟨rfl, -⟩ := hk
      exact ⟨fun t => ⟨fun h => (by cases h), fun ⟨_, h⟩ => (by cases h)⟩, ⟨fun _ => rfl, fun _ => ⟨_, rfl⟩⟩⟩
    | inr r =>
      obtain ⟨t, rest⟩ := r
      cases hk
      exact ⟨fun t => ⟨fun h => (by cases h; exact ⟨_, rfl⟩), fun ⟨_, h⟩ => (by cases h; rfl)⟩,
        ⟨fun ⟨_, h⟩ => (by cases h), fun h => (by cases h)⟩⟩

/-- C136, gdb: the message says why reading stopped. It names the line of the place where it stopped if the header of the crash frame is
on one line, and exactly this place unless the text has ended there or a colon is missing. In any case it does not name a line
before the place, unless a file is missing. -/
theorem C136_gdb_partial {inp text : Str} (hn : NoNul inp) (h : parseText inp = .ok (.inr text)) :
    ∃ d t m l, inp = d ++ t ∧ TraceStops inp d t m ∧ text = Loc.text l (some m) ∧
      (m ≠ c!"Function call in the frame header misses mandatory \"at file.c:xy\" section" → (locOf d).line ≤ l.line) ∧
      (OneLine inp → l.line = (locOf d).line ∧ (t ≠ [] → m ≠ c!"Expected a colon followed by a newline ':\\n'." → l = locOf d)) := by
  have hs := traceL_said hn
  unfold parseText at h
  generalize parseTraceL inp Loc.init = y1 at h hs
  generalize parseTrace inp = y2 at hs
  cases hs with
  | abort => cases h
  | ub => cases h
  | ok hk =>
    rename_i y1 y2
    rw [Out.bind_ok] at h
    cases y1 with
    | inl e =>
      obtain ⟨l, m⟩ := e
      obtain ⟨-, d, t, h1, h2, h3, h4⟩ := hk
      cases h
      exact ⟨d, t, m, l, h1, h2, rfl, h3, h4⟩
    | inr r => cases h

theorem text_of {inp : Str} {l : Loc} {m : Str} (h : parseTraceL inp Loc.init = .ok (.inl (l, m))) :
    parseText inp = .ok (.inr (l.text (some m))) := by
  unfold parseText
  rw [h]
  rfl

theorem oneLine_of {p s : Str} (hp : '\n' ∉ p) (hs : '\n' ∉ s) : OneLine (p ++ '\n' :: s) := by
  intro q t h
  obtain ⟨rfl, ht⟩ : p = q ∧ s = t := by
    rcases List.append_eq_append_iff.1 h with ⟨a, h1, h2⟩ | ⟨a, h1, h2⟩
    · cases a with
      | nil => simp at h1 h2; exact ⟨h1.symm, h2⟩
      | cons x a =>
        cases h2
        exact absurd (by simp) hs
    · cases a with
      | nil => simp at h1 h2; exact ⟨h1, h2.symm⟩
      | cons x a =>
        cases h2
        exact absurd (h1 ▸ by simp) hp
  subst ht
  exact ⟨fun f h e _ he hm => hs (he ▸ List.mem_append_left _ hm),
    fun a c t nt _ he _ hm => hs (he ▸ List.mem_append_right _ (List.mem_append_left _ hm))⟩

/-- The place of a wrong number of a thread. -/
example : NoNul c!"x\nThread y" ∧ OneLine c!"x\nThread y" ∧
    parseText c!"x\nThread y" = .ok (.inr (Loc.text ⟨2, 7⟩ (some c!"Thread number expected."))) :=
  ⟨by simp [NoNul], oneLine_of (p := c!"x") (s := c!"Thread y") (by decide) (by decide), text_of (by decide +kernel)⟩

/-- The place of a call without a file. -/
example : NoNul c!"x\n#3 0x1 (a=1) y" ∧ OneLine c!"x\n#3 0x1 (a=1) y" ∧ parseText c!"x\n#3 0x1 (a=1) y" =
    .ok (.inr (Loc.text ⟨2, 12⟩ (some c!"Function call in the frame header misses mandatory \"at file.c:xy\" section"))) :=
  ⟨by simp [NoNul], oneLine_of (p := c!"x") (s := c!"#3 0x1 (a=1) y") (by decide) (by decide), text_of (by decide +kernel)⟩

/-- The header of the crash frame is on two lines, and the line that is named is after the end of the text. -/
theorem C136_not_gdb : ∃ inp text l m, NoNul inp ∧ parseText inp = .ok (.inr text) ∧ text = Loc.text l (some m) ∧ (locOf inp).line < l.line :=
  ⟨c!"\n#0 0x1 in f ()\n at a.c:1\nThread x", _, ⟨5, 7⟩, c!"Thread number expected.", by simp [NoNul], text_of (by decide +kernel), rfl, by decide +kernel⟩

/-- The text ends after the crash frame, and the column that is named is after the end of the text. -/
theorem C136_not_gdb_column : ∃ inp text l m, NoNul inp ∧ OneLine inp ∧ parseText inp = .ok (.inr text) ∧ text = Loc.text l (some m) ∧
    l.line = (locOf inp).line ∧ (inp.length : Int) < l.column :=
  ⟨c!"x\n#0 0x1 in f ()", _, ⟨2, 28⟩, c!"Frame start sequence expected.", by simp [NoNul],
    oneLine_of (p := c!"x") (s := c!"#0 0x1 in f ()") (by decide) (by decide), text_of (by decide +kernel), rfl, by decide +kernel, by decide +kernel⟩

end Satyr.Gdb
