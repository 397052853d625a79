import Verif.Gdb.FrameNames
/-!
# Frames as printed by gdb, and that the reader accepts them
-/
namespace Satyr.Gdb
open Satyr.CStr Satyr.Normalize Satyr.Frames

/-! ## Specification: functions -/

/-- How a name begins. -/
def Begins (n : Str) : Prop := peek n ∈ c!"~*._" ++ alnum ∨ peek n = '('

/-- The text of a function, its name and its type: `??`, a name, or a type, one space and a name; a name without operators may
be followed by ` const`. -/
inductive FunctionText : Str → Str → Option Str → Prop
  | unknown : FunctionText c!"??" c!"??" none
  | plain {n : Str} (hn : Name true n) (hb : Begins n) : FunctionText n n none
  | const {n : Str} (hn : Name false n) (hb : Begins n) : FunctionText (n ++ c!" const") (n ++ c!" const") none
  | typed {t n : Str} (ht : Name false t) (hb : Begins t) (hn : Name true n) (hb : peek n ∈ nameChars)
      (hc : ∀ v, n ≠ c!"const" ++ v) : FunctionText (t ++ ' ' :: n) n (some t)
  | typedConst {t n : Str} (ht : Name false t) (hb : Begins t) (hn : Name false n) (hb : peek n ∈ nameChars)
      (hc : ∀ v, n ≠ c!"const" ++ v) : FunctionText (t ++ ' ' :: (n ++ c!" const")) (n ++ c!" const") (some t)

/-- The space between a function and its arguments: one space, or a newline and more. -/
def Separator (w : Str) : Prop := w = c!" " ∨ ∃ w', w = '\n' :: w' ∧ ∀ c ∈ w', c ∈ c!" \n"

/-! ## Specification: arguments -/

/-- The inside of a quoted string. -/
inductive Quoted : Str → Prop
  | nil : Quoted []
  | char {c : Char} {s : Str} (h0 : c ≠ '\x00') (hc : c ∉ c!"\"\\") (hs : Quoted s) : Quoted (c :: s)
  | escape {c : Char} {s : Str} (h0 : c ≠ '\x00') (hs : Quoted s) : Quoted ('\\' :: c :: s)

/-- Arguments: brackets are balanced, quotes are closed. -/
inductive Args : Str → Prop
  | nil : Args []
  | char {c : Char} {s : Str} (h0 : c ≠ '\x00') (hc : c ∉ c!"\"()") (hs : Args s) : Args (c :: s)
  | quoted {q s : Str} (hq : Quoted q) (hs : Args s) : Args ('"' :: (q ++ '"' :: s))
  | paren {a s : Str} (ha : Args a) (hs : Args s) : Args ('(' :: (a ++ ')' :: s))

/-! ## Functions are read -/

theorem Separator.spaces {w : Str} (h : Separator w) : w ≠ [] ∧ ∀ c ∈ w, c ∈ c!" \n" := by
  rcases h with rfl | ⟨w', rfl, h⟩
  · exact ⟨by simp, by decide⟩
  · refine ⟨by simp, fun c hc => ?_⟩
    rcases List.mem_cons.1 hc with rfl | hc
    · decide
    · exact h c hc

theorem Separator.split {w : Str} (h : Separator w) : ∃ c w', w = c :: w' ∧ (c = ' ' ∨ c = '\n') ∧ ∀ c ∈ w', c ∈ c!" \n" := by
  rcases h with rfl | ⟨w', rfl, h⟩
  · exact ⟨' ', [], rfl, .inl rfl, by simp⟩
  · exact ⟨'\n', w', rfl, .inr rfl, h⟩

theorem Separator.after {w : Str} (h : Separator w) (o : Bool) (r : Str) : AfterName o (w ++ '(' :: r) := by
  rcases h with rfl | ⟨w', rfl, h⟩
  · exact ⟨show ' ' ∈ srSpace by decide, fun _ => .inl ⟨r, rfl⟩⟩
  · exact ⟨show '\n' ∈ srSpace by decide, fun _ => .inr rfl⟩

theorem parseCharLimited_cons {c : Char} {s allowed : Str} (h : c ∈ allowed) (h0 : c ≠ '\x00') :
    parseCharLimited (c :: s) allowed = .ok (some c, s) := by
  unfold parseCharLimited
  rw [peek_cons, if_neg h0, if_neg (by simpa [strchrHas, h0] using h)]
  rfl

theorem parseCharLimited_not {s allowed : Str} (h : peek s ∉ allowed) : parseCharLimited s allowed = .ok (none, s) := by
  rcases parseCharLimited_cases s allowed with ⟨d, t, h1, h2, h3⟩ | h2
  · subst h1; exact absurd h2 h
  · exact h2

theorem nameParts_eq (s : Str) : nameParts (s.length + 1) s = partsF s := rfl

theorem Name.tail {o : Bool} {c : Char} {s : Str} (h : Name o (c :: s)) (h1 : c ≠ 'o') (h2 : c ≠ '(') (h3 : c ≠ '<') : Name o s := by
  generalize hx : c :: s = x at h
  cases h with
  | nil => cases hx
  | char hc ho hs => cases hx; exact hs
  | paren ha hs => cases hx; exact absurd rfl h2
  | angle ha hs => cases hx; exact absurd rfl h3
  | oper ho hx' => exact absurd (List.cons.inj hx).1 h1
  | operAngle ho hx' ha hs => exact absurd (List.cons.inj hx).1 h1
  | operParen ho hx' ha hs => exact absurd (List.cons.inj hx).1 h1

/-- A name is read by its beginning and its parts. -/
theorem nameStart_parts {o : Bool} {n u : Str} (hn : Name o n) (hb : Begins n) (hu : AfterName o u) :
    ∃ x t q, nameStart (n ++ u) = .ok (some (x, t)) ∧ partsF t = .ok (q, u) ∧ x ++ q = n := by
  rcases hb with hb | hb
  · have h1 : ∀ c ∈ firstChars, c ≠ '\x00' ∧ c ≠ '(' ∧ c ≠ '<' := by decide
    obtain ⟨h0, h2, h3⟩ := h1 _ hb
    change peek n ∈ firstChars at hb
    obtain ⟨s, hs⟩ := peek_split rfl h0
    generalize peek n = c at hb h0 h2 h3 hs
    subst hs
    unfold nameStart
    rw [List.cons_append, parseCharLimited_cons hb h0, Out.bind_ok]
    dsimp only
    by_cases ho : c = 'o'
    · rw [if_pos ho]
      exact ⟨_, _, _, rfl, partsF_name hn u hu, rfl⟩
    · rw [if_neg ho]
      exact ⟨_, _, _, rfl, partsF_name (hn.tail ho h2 h3) u hu, rfl⟩
  · have hbr : ∀ v, peek v = '(' → nameStart v = braces v := by
      intro v hv
      unfold nameStart
      rw [parseCharLimited_not (by rw [hv]; decide), Out.bind_ok]
    cases hn with
    | nil => exact absurd hb (by decide)
    | char hc ho hs => rw [peek_cons] at hb; subst hb; exact absurd hc (by decide)
    | @paren a s ha hs =>
      refine ⟨'(' :: (a ++ [')']), s ++ u, s, ?_, partsF_name hs u hu, by simp⟩
      rw [hbr _ rfl, List.cons_append, List.append_assoc, List.cons_append, braces_eq,
        bracket_some (by decide) (by decide) (innerF_nested ha (')' :: (s ++ u)) (.inl rfl))]
    | angle ha hs => exact absurd (show '<' = '(' from hb) (by decide)
    | oper ho hx => exact absurd (show 'o' = '(' from hb) (by decide)
    | operAngle ho hx ha hs => exact absurd (show 'o' = '(' from hb) (by decide)
    | operParen ho hx ha hs => exact absurd (show 'o' = '(' from hb) (by decide)

theorem chunk_some {v a u : Str} (hv : peek v ∈ nameChars) (h : partsF v = .ok (a, u)) :
    ∃ x t q, chunk false v = .ok (some (x, t)) ∧ partsF t = .ok (q, u) ∧ x ++ q = a := by
  rw [partsF_eq, rep, namePart] at h
  have hne : Post (chunkF false v) fun r => r.1 ≠ [] := by
    show Post (chunkLoop false (_ + 1) v) _
    unfold chunkLoop
    have h0 : peek v ≠ '\x00' := fun h => absurd hv (by rw [h]; decide)
    rw [if_neg h0]
    refine (chunkOperator_yields v).post.bind fun r hr => ?_
    refine Post.ite (fun hs => ?_) fun _ => ?_
    · refine .ok fun h0' => ?_
      have : r.2 = v := by have := hr.1; rw [h0'] at this; exact this
      rw [this] at hs
      exact chunk_go (.inl hv) hs
    · exact (Post.any _).bind fun _ _ => (Post.any _).bind fun _ _ => .ok (by simp)
  cases hc : chunkF false v with
  | abort => rw [chunk_eq, hc] at h; cases h
  | ub => rw [chunk_eq, hc] at h; cases h
  | ok r =>
    have h1 := hne r hc
    have hx : chunk false v = .ok (some r) := by rw [chunk_eq, hc, Out.bind_ok, if_neg h1]
    rw [hx, orElse_some, Out.bind_ok] at h
    dsimp only at h
    cases hq : partsF r.2 with
    | abort => rw [hq] at h; cases h
    | ub => rw [hq] at h; cases h
    | ok q =>
      rw [hq, Out.bind_ok] at h
      cases h
      exact ⟨r.1, r.2, q.1, hx, hq, rfl⟩

theorem noConst {s : Str} (h : ∀ v, s ≠ c!"const" ++ v) : (skipString s c!"const").1 = 0 := by
  rcases skipString_cases s c!"const" with ⟨b, hb, -⟩ | hb
  · exact absurd hb (h b)
  · rw [hb]

theorem constSuffix_none {space : Char} {s : Str} (h : ∀ v, s ≠ c!"const" ++ v) : constSuffix space s = .ok (some ([], space, s)) := by
  unfold constSuffix
  rw [if_pos (noConst h)]

theorem lastConst_none {space : Char} {s : Str} (h : ∀ v, s ≠ c!"const" ++ v) : lastConst space s = .ok (some ([], space :: s)) := by
  unfold lastConst
  rw [if_pos (noConst h)]

theorem secondPart_none {space : Char} {s : Str} (h : peek s = ' ' ∨ peek s = '\n' ∨ peek s = '(') :
    secondPart space s = .ok (some (none, space, s)) := by
  unfold secondPart
  rw [chunk_stop' (by rcases h with h | h | h <;> rw [h] <;> decide)
    (by rcases h with h | h | h <;> rw [h] <;> unfold chunkChars <;> decide)
    (operators_o _ (by rcases h with h | h | h <;> rw [h] <;> decide))]
  rfl

theorem ne_const {s : Str} (h : peek s ≠ 'c') : ∀ v, s ≠ c!"const" ++ v := by rintro v rfl; exact h rfl

/-- What the separator leaves before the arguments. -/
theorem peek_sep {w' : Str} (h : ∀ c ∈ w', c ∈ c!" \n") (r : Str) : peek (w' ++ '(' :: r) = ' ' ∨ peek (w' ++ '(' :: r) = '\n' ∨
    peek (w' ++ '(' :: r) = '(' := by
  cases w' with
  | nil => exact .inr (.inr rfl)
  | cons c w' =>
    have := h c (by simp)
    simp only [List.mem_cons, List.not_mem_nil, or_false] at this
    rcases this with rfl | rfl
    · exact .inl rfl
    · exact .inr (.inl rfl)

theorem sep_ne_c {s : Str} (h : peek s = ' ' ∨ peek s = '\n' ∨ peek s = '(') : peek s ≠ 'c' := by
  rcases h with h | h | h <;> rw [h] <;> decide

theorem space_mem {c : Char} (h : c = ' ' ∨ c = '\n') : c ∈ srSpace ∧ c ≠ '\x00' := by rcases h with rfl | rfl <;> decide

/-- Nothing more than the first part. -/
theorem afterSpace_plain (b : Str) {space : Char} {s : Str} (h : peek s = ' ' ∨ peek s = '\n' ∨ peek s = '(') :
    afterSpace b space s = .ok (some ((b, none), space :: s)) := by
  unfold afterSpace
  rw [constSuffix_none (ne_const (sep_ne_c h)), Out.bind_ok]
  dsimp only
  rw [secondPart_none h, Out.bind_ok]
  dsimp only
  rw [lastConst_none (ne_const (sep_ne_c h)), Out.bind_ok]
  simp [nameAndType]

theorem afterSpace_const (b : Str) {d : Char} {s : Str} (hd : d = ' ' ∨ d = '\n') (h : peek s = ' ' ∨ peek s = '\n' ∨ peek s = '(') :
    afterSpace b ' ' (c!"const" ++ d :: s) = .ok (some ((b ++ c!" const", none), d :: s)) := by
  unfold afterSpace constSuffix
  rw [skipString_append, if_neg (by simp), parseCharLimited_cons (space_mem hd).1 (space_mem hd).2, Out.bind_ok]
  dsimp only
  rw [Out.bind_ok]
  dsimp only
  rw [secondPart_none h, Out.bind_ok]
  dsimp only
  rw [lastConst_none (ne_const (sep_ne_c h)), Out.bind_ok]
  simp [nameAndType]

theorem ne_const_append {n w r : Str} (hw : Separator w) (hc : ∀ v, n ≠ c!"const" ++ v) : ∀ v, n ++ (w ++ r) ≠ c!"const" ++ v := by
  intro v h
  obtain ⟨d, w', rfl, hd, -⟩ := hw.split
  obtain ⟨t, ht, -⟩ := prefix_append h (show d ∉ c!"const" by rcases hd with rfl | rfl <;> decide)
  exact hc t ht

theorem secondPart_name {o : Bool} {n u : Str} {d space : Char} (hn : Name o n) (hb : peek n ∈ nameChars) (hd : d = ' ' ∨ d = '\n')
    (hu : AfterName o (d :: u)) : secondPart space (n ++ d :: u) = .ok (some (some n, d, u)) := by
  have hp := partsF_name hn _ hu
  have hb' : peek (n ++ d :: u) ∈ nameChars := by
    cases n with
    | nil => exact absurd hb (by decide)
    | cons c n => exact hb
  obtain ⟨x, t, q, h1, h2, h3⟩ := chunk_some hb' hp
  unfold secondPart
  rw [h1, Out.bind_ok]
  dsimp only
  rw [nameParts_eq, h2, Out.bind_ok]
  dsimp only
  rw [parseCharLimited_cons (space_mem hd).1 (space_mem hd).2, Out.bind_ok]
  dsimp only
  rw [h3]

theorem afterSpace_typed (b : Str) {n s : Str} {d : Char} (hn : Name true n) (hb : peek n ∈ nameChars) (hc : ∀ v, n ≠ c!"const" ++ v)
    (hd : d = ' ' ∨ d = '\n') (hu : AfterName true (d :: s)) (h : peek s = ' ' ∨ peek s = '\n' ∨ peek s = '(') :
    afterSpace b ' ' (n ++ d :: s) = .ok (some ((n, some b), d :: s)) := by
  unfold afterSpace
  rw [constSuffix_none, Out.bind_ok]
  · dsimp only
    rw [secondPart_name hn hb hd hu, Out.bind_ok]
    dsimp only
    rw [lastConst_none (ne_const (sep_ne_c h)), Out.bind_ok]
    simp [nameAndType]
  · intro v hv
    obtain ⟨t, ht, -⟩ := prefix_append hv (show d ∉ c!"const" by rcases hd with rfl | rfl <;> decide)
    exact hc t ht

theorem afterSpace_typedConst (b : Str) {n s : Str} {d : Char} (hn : Name false n) (hb : peek n ∈ nameChars)
    (hc : ∀ v, n ≠ c!"const" ++ v) (hd : d = ' ' ∨ d = '\n') :
    afterSpace b ' ' (n ++ ' ' :: (c!"const" ++ d :: s)) = .ok (some ((n ++ c!" const", some b), d :: s)) := by
  unfold afterSpace
  rw [constSuffix_none, Out.bind_ok]
  · dsimp only
    rw [secondPart_name hn hb (.inl rfl) ⟨show ' ' ∈ srSpace by decide, fun h => by cases h⟩, Out.bind_ok]
    dsimp only
    unfold lastConst
    rw [skipString_append, if_neg (by simp)]
    have : skipCharLimited (d :: s) srSpace = .ok (true, s) := by rcases hd with rfl | rfl <;> rfl
    dsimp only
    rw [this, Out.bind_ok, if_pos rfl, Out.bind_ok]
    simp [nameAndType]
  · intro v hv
    obtain ⟨t, ht, -⟩ := prefix_append hv (show ' ' ∉ c!"const" by decide)
    exact hc t ht

theorem Begins.not_unknown {n u : Str} (h : Begins n) : parseString (n ++ u) c!"??" = (none, n ++ u) := by
  rcases parseString_cases (n ++ u) c!"??" with ⟨b, hb, -⟩ | h'
  · exfalso
    cases n with
    | nil => exact absurd h (by unfold Begins; decide)
    | cons c n =>
      have : c = '?' := (List.cons.inj hb).1
      subst this
      exact absurd h (by unfold Begins; simp only [peek_cons]; decide)
  · exact h'

theorem functionName_start {o : Bool} {n : Str} {d : Char} {u : Str} (hn : Name o n) (hb : Begins n) (hd : d = ' ' ∨ d = '\n')
    (hu : AfterName o (d :: u)) : functionName (n ++ d :: u) = afterSpace n d u := by
  obtain ⟨x, t, q, h1, h2, h3⟩ := nameStart_parts hn hb hu
  unfold functionName
  rw [hb.not_unknown]
  dsimp only
  rw [h1, Out.bind_ok]
  dsimp only
  rw [nameParts_eq, h2, Out.bind_ok]
  dsimp only
  rw [parseCharLimited_cons (space_mem hd).1 (space_mem hd).2, Out.bind_ok]
  dsimp only
  rw [h3]

/-- A function is read. -/
theorem functionName_read {f n w : Str} {t : Option Str} (h : FunctionText f n t) (hw : Separator w) (r : Str) :
    functionName (f ++ (w ++ '(' :: r)) = .ok (some ((n, t), w ++ '(' :: r)) := by
  obtain ⟨d, w', rfl, hd, hw'⟩ := hw.split
  have hs := peek_sep hw' r
  have ha : ∀ o, AfterName o (d :: (w' ++ '(' :: r)) := fun o => hw.after o r
  have hsp : AfterName false (' ' :: (w' ++ '(' :: r)) := ⟨show ' ' ∈ srSpace by decide, fun h => by cases h⟩
  rw [List.cons_append]
  cases h with
  | unknown =>
    unfold functionName
    have : parseString (c!"??" ++ d :: (w' ++ '(' :: r)) c!"??" = (some c!"??", d :: (w' ++ '(' :: r)) :=
      ((C27_string _ c!"??").1 _ rfl).2
    rw [this]
  | plain hn hb => rw [functionName_start hn hb hd (ha _), afterSpace_plain _ hs]
  | @const n hn hb =>
    rw [List.append_assoc]
    show functionName (n ++ ' ' :: (c!"const" ++ d :: (w' ++ '(' :: r))) = _
    rw [functionName_start hn hb (.inl rfl) ⟨show ' ' ∈ srSpace by decide, fun h => by cases h⟩, afterSpace_const _ hd hs]
  | @typed t n ht hb hn hb' hc =>
    rw [List.append_assoc, List.cons_append,
      functionName_start ht hb (.inl rfl) ⟨show ' ' ∈ srSpace by decide, fun h => by cases h⟩,
      afterSpace_typed _ hn hb' hc hd (ha _) hs]
  | @typedConst t n ht hb hn hb' hc =>
    rw [List.append_assoc, List.cons_append, List.append_assoc,
      functionName_start ht hb (.inl rfl) ⟨show ' ' ∈ srSpace by decide, fun h => by cases h⟩]
    exact afterSpace_typedConst _ hn hb' hc hd

/-! ## Arguments are read -/

/-- No suffix of `a`, followed by `u`, begins with `(truncated)`. -/
def NotCut (a u : Str) : Prop := ∀ x y, a = x ++ y → y ≠ [] → ∀ v, y ++ u ≠ c!"(truncated)" ++ v

theorem NotCut.left {a b u : Str} (h : NotCut (a ++ b) u) : NotCut a (b ++ u) := fun x y he hy v hv =>
  h x (y ++ b) (by rw [he, List.append_assoc]) (by simp [hy]) v (by rw [List.append_assoc]; exact hv)

theorem NotCut.right {a b u : Str} (h : NotCut (a ++ b) u) : NotCut b u := fun x y he hy v hv =>
  h (a ++ x) y (by rw [he, List.append_assoc]) hy v hv

theorem NotCut.head {c : Char} {a u : Str} (h : NotCut (c :: a) u) : startsWith (c :: (a ++ u)) c!"(truncated)" = false := by
  by_contra hc
  obtain ⟨v, hv⟩ := (startsWith_split _ _).1 (by simpa using hc)
  exact h [] (c :: a) rfl (by simp) v hv

/-- One character that is read. -/
theorem argsLoop_step {n d d' : Nat} {st e st' e' : Bool} {c : Char} {u : Str}
    (hcut : e = true ∨ startsWith (c :: u) c!"(truncated)" = false) (hs : argStep c d st e = some (d', st', e')) (hu : peek u ≠ '\x00') :
    argsLoop (n + 1) d st e (c :: u) = argsLoop n d' st' e' u := by
  have : (!e && startsWith (c :: u) c!"(truncated)") = false := by rcases hcut with rfl | h <;> simp [*]
  rw [argsLoop]
  rw [this]
  dsimp only [peek_cons]
  rw [if_neg (by decide), if_neg (by decide), hs]
  show (Out.ok u >>= _) = _
  rw [Out.bind_ok, if_neg hu]

theorem quoted_peek {q u : Str} (h : Quoted q) (hu : peek u ≠ '\x00') : peek (q ++ u) ≠ '\x00' := by
  cases h with
  | nil => exact hu
  | char h0 hc hs => exact h0
  | escape h0 hs => exact (show '\\' ≠ '\x00' by decide)

theorem args_peek {a u : Str} (h : Args a) (hu : peek u ≠ '\x00') : peek (a ++ u) ≠ '\x00' := by
  cases h with
  | nil => exact hu
  | char h0 hc hs => exact h0
  | quoted hq hs => exact (show '"' ≠ '\x00' by decide)
  | paren ha hs => exact (show '(' ≠ '\x00' by decide)

theorem argsLoop_quoted {q : Str} (h : Quoted q) : ∀ (n d : Nat) (u : Str), NotCut q u → peek u ≠ '\x00' →
    argsLoop (n + q.length) d true false (q ++ u) = argsLoop n d true false u := by
  induction h with
  | nil => intro n d u _ _; rfl
  | @char c s h0 hc hs ih =>
    intro n d u hn hu
    simp only [List.mem_cons, List.not_mem_nil, or_false, not_or] at hc
    rw [List.length_cons, ← Nat.add_assoc, List.cons_append,
      argsLoop_step (d' := d) (st' := true) (e' := false) (.inr hn.head) (by simp [argStep, hc.1, hc.2]) (quoted_peek hs hu)]
    exact ih n d u (NotCut.right (a := [c]) hn) hu
  | @escape c s h0 hs ih =>
    intro n d u hn hu
    have hn' : NotCut (c :: s) u := NotCut.right (a := ['\\']) hn
    rw [List.length_cons, List.length_cons, ← Nat.add_assoc, ← Nat.add_assoc, List.cons_append, List.cons_append,
      argsLoop_step (d := d) (st := true) (e := false) (d' := d) (st' := true) (e' := true) (u := c :: (s ++ u))
        (.inr (by simpa using hn.head)) (by simp [argStep]) h0,
      argsLoop_step (d' := d) (st' := true) (e' := false) (.inl rfl) (by simp [argStep]) (quoted_peek hs hu)]
    exact ih n d u (NotCut.right (a := [c]) hn') hu

theorem argsLoop_args {a : Str} (h : Args a) : ∀ (n d : Nat) (u : Str), NotCut a u → peek u ≠ '\x00' →
    argsLoop (n + a.length) d false false (a ++ u) = argsLoop n d false false u := by
  induction h with
  | nil => intro n d u _ _; rfl
  | @char c s h0 hc hs ih =>
    intro n d u hn hu
    simp only [List.mem_cons, List.not_mem_nil, or_false, not_or] at hc
    rw [List.length_cons, ← Nat.add_assoc, List.cons_append,
      argsLoop_step (d' := d) (st' := false) (e' := false) (.inr hn.head) (by simp [argStep, hc.1, hc.2.1, hc.2.2]) (args_peek hs hu)]
    exact ih n d u (NotCut.right (a := [c]) hn) hu
  | @quoted q s hq hs ih =>
    intro n d u hn hu
    have hn1 : NotCut (q ++ '"' :: s) u := NotCut.right (a := ['"']) hn
    have hn2 : NotCut ('"' :: s) u := NotCut.right hn1
    have hq' : peek ('"' :: (s ++ u)) ≠ '\x00' := (show '"' ≠ '\x00' by decide)
    rw [List.cons_append, List.append_assoc, List.cons_append,
      show n + ('"' :: (q ++ '"' :: s)).length = n + s.length + 1 + q.length + 1 by len,
      argsLoop_step (d' := d) (st' := true) (e' := false) (.inr (by simpa using hn.head)) (by simp [argStep]) (quoted_peek hq hq'),
      argsLoop_quoted hq _ d _ (by simpa using hn1.left) hq',
      argsLoop_step (d' := d) (st' := false) (e' := false) (.inr hn2.head) (by simp [argStep]) (args_peek hs hu)]
    exact ih n d u (NotCut.right (a := ['"']) hn2) hu
  | @paren a s ha hs iha ih =>
    intro n d u hn hu
    have hn1 : NotCut (a ++ ')' :: s) u := NotCut.right (a := ['(']) hn
    have hn2 : NotCut (')' :: s) u := NotCut.right hn1
    have hp' : peek (')' :: (s ++ u)) ≠ '\x00' := (show ')' ≠ '\x00' by decide)
    rw [List.cons_append, List.append_assoc, List.cons_append,
      show n + ('(' :: (a ++ ')' :: s)).length = n + s.length + 1 + a.length + 1 by len,
      argsLoop_step (d' := d + 1) (st' := false) (e' := false) (.inr (by simpa using hn.head)) (by simp [argStep]) (args_peek ha hp'),
      iha _ (d + 1) _ (by simpa using hn1.left) hp',
      argsLoop_step (d' := d) (st' := false) (e' := false) (.inr hn2.head) (by simp [argStep]) (args_peek hs hu)]
    exact ih n d u (NotCut.right (a := [')']) hn2) hu

theorem notCut_of {a u : Str} (h : ∀ x y, a ++ c!")" ≠ x ++ (c!"(truncated)" ++ y)) : NotCut a (')' :: u) := by
  intro x y he hy v hv
  have hv' : (y ++ [')']) ++ u = c!"(truncated)" ++ v := by rw [← hv]; simp
  rcases List.append_eq_append_iff.1 hv' with ⟨t, h1, h2⟩ | ⟨t, h1, h2⟩
  · cases t with
    | nil => exact h x [] (by rw [h1, he]; simp)
    | cons e t =>
      -- the closing bracket would be inside of the word
      have h3 : ')' ∈ c!"(truncated" := by
        have h4 := congrArg List.dropLast h1
        rw [List.dropLast_append_of_ne_nil (by simp)] at h4
        have h5 : c!"(truncated)".dropLast = c!"(truncated" := rfl
        rw [← h5, h4]
        simp
      exact absurd h3 (by decide)
  · exact h x t (by rw [he, List.append_assoc, h1])

theorem skipArgs_read {a : Str} (ha : Args a) (hc : ∀ x y, a ++ c!")" ≠ x ++ (c!"(truncated)" ++ y)) (u : Str) :
    skipArgs ('(' :: (a ++ ')' :: u)) = .ok (some u) := by
  unfold skipArgs
  rw [skipChar_cons (by decide), Out.bind_ok]
  dsimp only
  rw [if_neg (by decide), show (a ++ ')' :: u).length + 1 = u.length + 2 + a.length by len,
    argsLoop_args ha _ _ _ (notCut_of hc) (show ')' ≠ '\x00' by decide)]
  have : argsLoop (u.length + 2) 0 false false (')' :: u) = .ok (0, false, false, ')' :: u) := by
    unfold argsLoop
    rw [show startsWith (')' :: u) c!"(truncated)" = false from rfl]
    rfl
  rw [this, Out.bind_ok]
  dsimp only
  rw [if_neg (by simp), skipChar_cons (by decide), Out.bind_ok]
  rfl

/-- A call is read. -/
theorem functionCall_read {f n w a : Str} {t : Option Str} (h : FunctionText f n t) (hw : Separator w) (ha : Args a)
    (hc : ∀ x y, a ++ c!")" ≠ x ++ (c!"(truncated)" ++ y)) (u : Str) :
    functionCall (f ++ (w ++ '(' :: (a ++ ')' :: u))) = .ok (some ((n, t), u)) := by
  unfold functionCall
  rw [functionName_read h hw, Out.bind_ok]
  dsimp only
  rw [skipSpan_append (b := '(' :: (a ++ ')' :: u)) hw.spaces.2 (show '(' ∉ c!" \n" by decide), Out.bind_ok]
  dsimp only
  rw [if_neg (by have := hw.spaces.1; simpa using this), skipArgs_read ha hc, Out.bind_ok]
  rfl

end Satyr.Gdb
