import Verif.Gdb.FrameSafe
/-!
# Function names as printed by gdb, and that the reader accepts them
-/
namespace Satyr.Gdb
open Satyr.CStr Satyr.Normalize Satyr.Frames

/-! ## Specification -/

/-- If the text begins with `operator`, the identifier goes on: this is not an operator function. -/
def NotOperator (s : Str) : Prop := ∀ t, s = c!"operator" ++ t → peek t ∈ alnum ++ c!"_:."

/-- Text in which square brackets are balanced. -/
inductive Balanced : Str → Prop
  | nil : Balanced []
  | char {c : Char} {s : Str} (hc : c ≠ '[' ∧ c ≠ ']') (hs : Balanced s) : Balanced (c :: s)
  | square {a s : Str} (ha : Balanced a) (hs : Balanced s) : Balanced ('[' :: (a ++ ']' :: s))

/-- Text between brackets: characters of names and spaces, with balanced brackets. With `t`, the brackets are those of a
template, and what instantiates it may follow another bracketed part: ` [with T = int [3]]`. -/
inductive Nested : Bool → Str → Prop
  | nil {t : Bool} : Nested t []
  | char {t : Bool} {c : Char} {s : Str} (hc : c ∈ nameChars ∨ c = ' ') (ho : NotOperator (c :: s))
      (hw : ∀ t, c :: s ≠ c!" [with " ++ t) (hw' : ∀ t, s ≠ c!" [with " ++ t) (hs : Nested t s) : Nested t (c :: s)
  | paren {t : Bool} {a s : Str} (ha : Nested false a) (hs : Nested t s) : Nested t ('(' :: (a ++ ')' :: s))
  | angle {t : Bool} {a s : Str} (ha : Nested true a) (hs : Nested t s) : Nested t ('<' :: (a ++ '>' :: s))
  | args {a s : Str} (ha : Balanced a) (hs : Nested true s) : Nested true (c!" [with " ++ (a ++ ']' :: s))

/-- The operators of C++ that can be overloaded. -/
def cxxOperators : List Str :=
  [c!"+", c!"-", c!"*", c!"/", c!"%", c!"^", c!"&", c!"|", c!"~", c!"!", c!"=", c!"<", c!">", c!"+=", c!"-=", c!"*=", c!"/=",
   c!"%=", c!"^=", c!"&=", c!"|=", c!"<<", c!">>", c!">>=", c!"<<=", c!"==", c!"!=", c!"<=", c!">=", c!"&&", c!"||", c!"++",
   c!"--", c!",", c!"->*", c!"->", c!"()", c!"[]", c!" new", c!" new[]", c!" delete", c!" delete[]"]

/-- A name of a function: characters of names, with balanced brackets, without spaces outside of brackets. With `o`, there may
be operators in it; an operator is followed by the end of the name, by template arguments or by parameters. -/
inductive Name (o : Bool) : Str → Prop
  | nil : Name o []
  | char {c : Char} {s : Str} (hc : c ∈ nameChars) (ho : NotOperator (c :: s)) (hs : Name o s) : Name o (c :: s)
  | paren {a s : Str} (ha : Nested false a) (hs : Name o s) : Name o ('(' :: (a ++ ')' :: s))
  | angle {a s : Str} (ha : Nested true a) (hs : Name o s) : Name o ('<' :: (a ++ '>' :: s))
  | oper {x : Str} (ho : o = true) (hx : x ∈ cxxOperators) : Name o (c!"operator" ++ x)
  | operAngle {x a s : Str} (ho : o = true) (hx : x ∈ cxxOperators) (ha : Nested true a) (hs : Name o s) :
      Name o (c!"operator" ++ (x ++ ((if x.getLast? = some '<' then c!" " else []) ++ '<' :: (a ++ '>' :: s))))
  | operParen {x a s : Str} (ho : o = true) (hx : x ∈ cxxOperators) (ha : Nested false a) (hs : Name o s) :
      Name o (c!"operator" ++ (x ++ '(' :: (a ++ ')' :: s)))

/-! ## Chunks -/

theorem chunkOperator_none {s : Str} (h : parseOperator s = none) : chunkOperator s = .ok ([], s) := by
  unfold chunkOperator; rw [h]

theorem strchrHas_iff {set : Str} {c : Char} (h0 : c ≠ '\x00') : strchrHas set c = set.contains c := by simp [strchrHas, h0]

/-- The characters that a chunk takes. -/
def chunkChars (sp : Bool) (c : Char) : Prop := c ∈ nameChars ∨ (sp = true ∧ c = ' ')

theorem chunkChars_nul {sp : Bool} {c : Char} (h : chunkChars sp c) : c ≠ '\x00' := by
  rintro rfl
  rcases h with h | h
  · exact absurd h (by decide)
  · exact absurd h.2 (by decide)

theorem chunk_go {sp : Bool} {c : Char} (h : chunkChars sp c) :
    ¬ (strchrHas nameChars c = false ∧ (sp = false ∨ strchrHas c!" " c = false)) := by
  rintro ⟨h1, h2⟩
  rw [strchrHas_iff (chunkChars_nul h)] at h1 h2
  rcases h with h | ⟨rfl, rfl⟩
  · rw [List.contains_iff_mem.2 h] at h1; cases h1
  · rcases h2 with h2 | h2 <;> exact absurd h2 (by decide)

theorem chunk_stop {sp : Bool} {c : Char} (h0 : c ≠ '\x00') (h : ¬ chunkChars sp c) :
    strchrHas nameChars c = false ∧ (sp = false ∨ strchrHas c!" " c = false) := by
  rw [strchrHas_iff h0, strchrHas_iff h0]
  unfold chunkChars at h
  rw [not_or, not_and] at h
  refine ⟨by simpa using h.1, ?_⟩
  cases sp with
  | false => exact .inl rfl
  | true => exact .inr (by simpa using h.2 rfl)

/-- The loop of chunks with as much fuel as it needs. -/
def chunkF (sp : Bool) (s : Str) : Out (Str × Str) := chunkLoop sp (s.length + 1) s

theorem chunk_eq (sp : Bool) (s : Str) : chunk sp s = chunkF sp s >>= fun r => .ok (if r.1 = [] then none else some r) := rfl

theorem chunkF_char {sp : Bool} {c : Char} {v : Str} (hc : chunkChars sp c) (hop : parseOperator (c :: v) = none) :
    chunkF sp (c :: v) = chunkF sp v >>= fun q => .ok (c :: q.1, q.2) := by
  show chunkLoop sp (_ + 1) (c :: v) = _
  unfold chunkLoop
  rw [peek_cons, if_neg (chunkChars_nul hc), chunkOperator_none hop, Out.bind_ok]
  dsimp only
  rw [peek_cons, if_neg (chunk_go hc)]
  show (Out.ok v >>= _) = _
  rw [Out.bind_ok, chunkLoop_fuel sp _ (v.length + 1) v (by len) (by omega)]
  rfl

theorem chunkF_stop {sp : Bool} {v : Str} (h0 : peek v ≠ '\x00') (hc : ¬ chunkChars sp (peek v)) (hop : parseOperator v = none) :
    chunkF sp v = .ok ([], v) := by
  show chunkLoop sp (_ + 1) v = _
  unfold chunkLoop
  rw [if_neg h0, chunkOperator_none hop, Out.bind_ok]
  dsimp only
  rw [if_pos (chunk_stop h0 hc)]

theorem chunk_char {sp : Bool} {c : Char} {v x t : Str} (hc : chunkChars sp c) (hop : parseOperator (c :: v) = none)
    (h : chunkF sp v = .ok (x, t)) : chunk sp (c :: v) = .ok (some (c :: x, t)) := by
  rw [chunk_eq, chunkF_char hc hop, h]; rfl

theorem chunk_stop' {sp : Bool} {v : Str} (h0 : peek v ≠ '\x00') (hc : ¬ chunkChars sp (peek v)) (hop : parseOperator v = none) :
    chunk sp v = .ok none := by
  rw [chunk_eq, chunkF_stop h0 hc hop]; rfl

theorem orElse_none {α : Type} (y : Out (Option α)) : orElse (.ok none) y = y := rfl
theorem orElse_some {α : Type} (a : α) (y : Out (Option α)) : orElse (.ok (some a)) y = .ok (some a) := rfl

theorem operators_o : ∀ s : Str, peek s ≠ 'o' → parseOperator s = none := by
  intro s h
  cases hr : parseOperator s with
  | none => rfl
  | some r =>
    obtain ⟨x, -, -, h2⟩ := parseOperator_some hr
    rw [h2] at h
    exact absurd rfl h

theorem templateArgs_none {s : Str} (h : ∀ t, s ≠ c!" [with " ++ t) : templateArgs s = .ok none := by
  unfold templateArgs
  rcases skipString_cases s c!" [with " with ⟨b, hb, hs⟩ | hs
  · exact absurd hb (h b)
  · rw [hs]; rfl

theorem templateStep_none {b : Bool} {s : Str} (h : ∀ t, s ≠ c!" [with " ++ t) :
    (if b = true then templateArgs s else .ok none) = .ok none := by
  split
  · exact templateArgs_none h
  · rfl

theorem bracket_none {l r : Char} (hl0 : l ≠ '\x00') {f : Str → Out (Str × Str)} {s : Str} (h : peek s ≠ l) :
    bracket l r f s = .ok none := by
  unfold bracket
  rw [skipChar_not hl0 h]; rfl

theorem bracket_some {l r : Char} (hl0 : l ≠ '\x00') (hr0 : r ≠ '\x00') {f : Str → Out (Str × Str)} {a v : Str}
    (h : f (a ++ r :: v) = .ok (a, r :: v)) : bracket l r f (l :: (a ++ r :: v)) = .ok (some (l :: (a ++ [r]), v)) := by
  unfold bracket
  rw [skipChar_cons hl0, Out.bind_ok]
  dsimp only
  rw [if_neg (by decide), h, Out.bind_ok]
  dsimp only
  rw [skipChar_cons hr0]
  rfl

/-! ## Inside brackets -/

theorem innerF_close (b : Bool) {u : Str} (h : peek u = ')' ∨ peek u = '>') : innerF b u = .ok ([], u) := by
  have ho : parseOperator u = none := operators_o u (by rcases h with h | h <;> rw [h] <;> decide)
  rw [innerF_eq, rep, innerStep, templateStep_none, orElse_none, chunk_stop', orElse_none, bracket_none, orElse_none, bracket_none]
  · rfl
  · decide
  · rcases h with h | h <;> rw [h] <;> decide
  · decide
  · rcases h with h | h <;> rw [h] <;> decide
  · rcases h with h | h <;> rw [h] <;> decide
  · rcases h with h | h <;> rw [h] <;> unfold chunkChars <;> decide
  · exact ho
  · rintro t rfl
    rcases h with h | h <;> exact absurd h (by simp [peek])

theorem innerF_char {b : Bool} {c : Char} {v a u : Str} (hc : c ∈ nameChars ∨ c = ' ') (hop : parseOperator (c :: v) = none)
    (hw : ∀ t, c :: v ≠ c!" [with " ++ t) (hw' : ∀ t, v ≠ c!" [with " ++ t) (h : innerF b v = .ok (a, u)) :
    innerF b (c :: v) = .ok (c :: a, u) := by
  have hc' : chunkChars true c := hc.imp id fun h => ⟨rfl, h⟩
  rw [innerF_eq, rep, innerStep, templateStep_none hw', orElse_none] at h
  rw [innerF_eq, rep, innerStep, templateStep_none hw, orElse_none]
  cases hv : chunkF true v with
  | abort => rw [chunk_eq, hv] at h; cases h
  | ub => rw [chunk_eq, hv] at h; cases h
  | ok r =>
    obtain ⟨x, t⟩ := r
    rw [chunk_char hc' hop hv, orElse_some, Out.bind_ok]
    dsimp only
    have hx : chunk true v = .ok (if x = [] then none else some (x, t)) := by rw [chunk_eq, hv]; rfl
    have hr : Reads v (x, t) := chunkLoop_post true _ v _ hv
    by_cases h0 : x = []
    · subst h0
      have ht : t = v := hr.1
      subst ht
      have h' : innerF b t = .ok (a, u) := by
        rw [innerF_eq, rep, innerStep, templateStep_none hw', orElse_none]; exact h
      rw [h', Out.bind_ok]
      rfl
    · rw [hx, if_neg h0, orElse_some, Out.bind_ok] at h
      dsimp only at h
      cases ht : innerF b t with
      | abort => rw [ht] at h; cases h
      | ub => rw [ht] at h; cases h
      | ok q =>
        rw [ht, Out.bind_ok] at h
        rw [Out.bind_ok]
        cases h
        rfl

theorem innerF_paren {b : Bool} {a v s u : Str} (ha : innerF false (a ++ ')' :: v) = .ok (a, ')' :: v)) (h : innerF b v = .ok (s, u)) :
    innerF b ('(' :: (a ++ ')' :: v)) = .ok ('(' :: (a ++ ')' :: s), u) := by
  rw [innerF_eq, rep, innerStep, templateStep_none, orElse_none, chunk_stop', orElse_none, bracket_some _ _ ha, orElse_some, Out.bind_ok]
  · dsimp only
    rw [h, Out.bind_ok]
    simp
  · decide
  · decide
  · rw [peek_cons]; decide
  · rw [peek_cons]; unfold chunkChars; decide
  · exact operators_o _ (by rw [peek_cons]; decide)
  · rintro t h; exact absurd (congrArg peek h) (show '(' ≠ ' ' by decide)

theorem innerF_angle {b : Bool} {a v s u : Str} (ha : innerF true (a ++ '>' :: v) = .ok (a, '>' :: v)) (h : innerF b v = .ok (s, u)) :
    innerF b ('<' :: (a ++ '>' :: v)) = .ok ('<' :: (a ++ '>' :: s), u) := by
  rw [innerF_eq, rep, innerStep, templateStep_none, orElse_none, chunk_stop', orElse_none, bracket_none, orElse_none, bracket_some _ _ ha,
    Out.bind_ok]
  · dsimp only
    rw [h, Out.bind_ok]
    simp
  · decide
  · decide
  · decide
  · rw [peek_cons]; decide
  · rw [peek_cons]; decide
  · rw [peek_cons]; unfold chunkChars; decide
  · exact operators_o _ (by rw [peek_cons]; decide)
  · rintro t h; exact absurd (congrArg peek h) (show '<' ≠ ' ' by decide)

theorem operators_first : ∀ x ∈ operators, x ≠ [] ∧ peek x ∉ alnum ++ c!"_:." := by decide +kernel

/-- A prefix that ends inside `a` or goes on with the first character of `b`. -/
theorem prefix_append {p a b t : Str} (h : a ++ b = p ++ t) (hb : peek b ∉ p) : ∃ t', a = p ++ t' ∧ t = t' ++ b := by
  rcases List.append_eq_append_iff.1 h with ⟨c, h1, h2⟩ | ⟨c, h1, h2⟩
  · cases c with
    | nil =>
      rw [List.append_nil] at h1
      rw [List.nil_append] at h2
      exact ⟨[], by rw [h1, List.append_nil], by rw [h2, List.nil_append]⟩
    | cons d c =>
      refine absurd ?_ hb
      rw [h2, List.cons_append, peek_cons, h1]
      simp
  · exact ⟨c, h1, h2⟩

theorem notOperator {s u : Str} (h : NotOperator s) (hu : peek u ∉ c!"operator") : parseOperator (s ++ u) = none := by
  cases hr : parseOperator (s ++ u) with
  | none => rfl
  | some r =>
    obtain ⟨x, hx, -, h2⟩ := parseOperator_some hr
    obtain ⟨t, ht, ht2⟩ := prefix_append (p := c!"operator") (t := x ++ r.2) (by rw [h2, List.append_assoc]) hu
    have h1 := h t ht
    obtain ⟨hx0, hx1⟩ := operators_first x hx
    have : peek t = peek x := by
      have h3 : peek (x ++ r.2) = peek (t ++ u) := by rw [ht2]
      have ht0 : t ≠ [] := by rintro rfl; exact absurd h1 (by decide)
      rw [peek_append hx0, peek_append ht0] at h3
      exact h3.symm
    rw [this] at h1
    exact absurd h1 hx1

theorem noWith {s u : Str} (h : ∀ t, s ≠ c!" [with " ++ t) (hu : peek u ∉ c!" [with ") (t : Str) :
    s ++ u ≠ c!" [with " ++ t := by
  intro h1
  obtain ⟨t', ht, -⟩ := prefix_append h1 hu
  exact h t' ht

theorem templateArgsLoop_close {d : Nat} {u : Str} (hd : d = 1) : templateArgsLoop d (']' :: u) = ([], ']' :: u) := by
  subst hd; rfl

/-- Balanced text is taken at every depth. -/
theorem templateArgsLoop_balanced {a : Str} (h : Balanced a) : ∀ (d : Nat) (u : Str), 1 ≤ d →
    templateArgsLoop d (a ++ u) = (a ++ (templateArgsLoop d u).1, (templateArgsLoop d u).2) := by
  induction h with
  | nil => intro d u _; rfl
  | @char c s hc hs ih =>
    intro d u hd
    rw [List.cons_append, templateArgsLoop, if_neg hc.1, if_neg hc.2, ih d u hd]
    rfl
  | @square a s ha hs iha ihs =>
    intro d u hd
    rw [List.cons_append, templateArgsLoop, if_pos rfl, List.append_assoc, List.cons_append, iha (d + 1) _ (by omega), templateArgsLoop,
      if_neg (by decide), if_pos rfl, Nat.add_sub_cancel, if_neg (by omega), ihs d u hd]
    simp

theorem templateArgs_read {a u : Str} (h : Balanced a) :
    templateArgs (c!" [with " ++ (a ++ ']' :: u)) = .ok (some (c!" [with " ++ (a ++ [']']), u)) := by
  unfold templateArgs
  rw [skipString_append, if_neg (by simp)]
  dsimp only
  rw [templateArgsLoop_balanced h 1 _ (by omega), templateArgsLoop_close rfl, skipChar_cons (by decide), List.append_nil]
  rfl

theorem innerF_args {a v s u : Str} (ha : Balanced a) (h : innerF true v = .ok (s, u)) :
    innerF true (c!" [with " ++ (a ++ ']' :: v)) = .ok (c!" [with " ++ (a ++ ']' :: s), u) := by
  rw [innerF_eq, rep, innerStep, if_pos rfl, templateArgs_read ha, orElse_some, Out.bind_ok]
  dsimp only
  rw [h, Out.bind_ok]
  simp

theorem innerF_nested {b : Bool} {s : Str} (h : Nested b s) :
    ∀ u : Str, peek u = ')' ∨ peek u = '>' → innerF b (s ++ u) = .ok (s, u) := by
  induction h with
  | nil => intro u hu; exact innerF_close _ hu
  | char hc ho hw hw' hs ih =>
    intro u hu
    have hu1 : peek u ∉ c!"operator" := by rcases hu with h | h <;> rw [h] <;> decide
    have hu2 : peek u ∉ c!" [with " := by rcases hu with h | h <;> rw [h] <;> decide
    exact innerF_char hc (notOperator ho hu1) (noWith hw hu2) (noWith hw' hu2) (ih u hu)
  | paren ha hs iha ihs =>
    intro u hu
    rw [List.cons_append, List.append_assoc, List.cons_append]
    exact innerF_paren (iha _ (.inl rfl)) (ihs u hu)
  | angle ha hs iha ihs =>
    intro u hu
    rw [List.cons_append, List.append_assoc, List.cons_append]
    exact innerF_angle (iha _ (.inr rfl)) (ihs u hu)
  | args ha hs ih =>
    intro u hu
    rw [List.append_assoc, List.append_assoc, List.cons_append]
    exact innerF_args ha (ih u hu)

/-! ## Names outside of brackets -/

theorem firstOp_find {s : Str} : ∀ {l : List Str}, (∀ y ∈ l, y ≠ []) →
    firstOp s l = (l.find? fun y => startsWith s y).map fun y => (c!"operator" ++ y, s.drop y.length)
  | [], _ => rfl
  | x :: xs, h => by
    rw [firstOp, List.find?_cons]
    rcases skipString_cases s x with ⟨b, hb, hs⟩ | hs
    · rw [hs, (startsWith_split s x).2 ⟨b, hb⟩, if_pos (List.length_pos_iff.2 (h x (by simp)))]
      dsimp only [Option.map]
      rw [hb, List.drop_left]
    · rw [hs, if_neg (by dsimp only; omega)]
      have : startsWith s x = false := by
        by_contra hc
        obtain ⟨b, hb⟩ := (startsWith_split s x).1 (by simpa using hc)
        rw [hb, skipString_append] at hs
        exact h x (by simp) (List.length_eq_zero_iff.1 (congrArg Prod.fst hs))
      rw [this]
      exact firstOp_find fun y hy => h y (by simp [hy])

/-- The characters after an operator that the theorems are about. -/
def afterOp (x : Str) (d : Char) : Prop := d = ' ' ∨ d = '\n' ∨ d = '(' ∨ (d = '<' ∧ x.getLast? ≠ some '<')

instance (x : Str) (d : Char) : Decidable (afterOp x d) := by unfold afterOp; infer_instance

theorem afterOp_mem {x : Str} {d : Char} (h : afterOp x d) : d ∈ c!" \n(<" := by
  rcases h with h | h | h | ⟨h, -⟩ <;> subst h <;> decide

theorem operators_longer : ∀ d ∈ c!" \n(<", ∀ x ∈ cxxOperators, afterOp x d → ∀ y ∈ operators, startsWith y (x ++ [d]) = false := by
  decide +kernel

theorem operators_find : ∀ d ∈ c!" \n(<", ∀ x ∈ cxxOperators, afterOp x d →
    operators.find? (fun y => startsWith (x ++ [d]) y) = some (if x = c!"--" ∨ x = c!"-=" then c!"-" else x) := by
  decide +kernel

theorem startsWith_longer {a r y : Str} (h : startsWith y a = false) : startsWith (a ++ r) y = startsWith a y := by
  rw [Bool.eq_iff_iff, startsWith_split, startsWith_split]
  constructor
  · rintro ⟨b, hb⟩
    rcases List.append_eq_append_iff.1 hb with ⟨c, h1, h2⟩ | ⟨c, h1, h2⟩
    · have : startsWith y a = true := (startsWith_split y a).2 ⟨c, h1⟩
      rw [this] at h; cases h
    · exact ⟨c, h1⟩
  · rintro ⟨b, hb⟩
    exact ⟨b ++ r, by rw [hb, List.append_assoc]⟩

theorem find_congr {α : Type} {p q : α → Bool} : ∀ {l : List α}, (∀ y ∈ l, p y = q y) → l.find? p = l.find? q
  | [], _ => rfl
  | x :: xs, h => by
    rw [List.find?_cons, List.find?_cons, h x (by simp), find_congr fun y hy => h y (by simp [hy])]

theorem parseOperator_oper {x : Str} {d : Char} (hx : x ∈ cxxOperators) (hd : afterOp x d) (r : Str) :
    parseOperator (c!"operator" ++ (x ++ d :: r)) =
      if x = c!"--" ∨ x = c!"-=" then some (c!"operator-", x.tail ++ d :: r) else some (c!"operator" ++ x, d :: r) := by
  have hm := afterOp_mem hd
  unfold parseOperator
  rw [skipString_append]
  dsimp only
  rw [if_neg (show ¬ c!"operator".length = 0 by decide), firstOp_find (fun y hy => (operators_first y hy).1)]
  have : operators.find? (fun y => startsWith (x ++ d :: r) y) = some (if x = c!"--" ∨ x = c!"-=" then c!"-" else x) := by
    rw [← operators_find d hm x hx hd]
    refine find_congr fun y hy => ?_
    have := startsWith_longer (r := r) (operators_longer d hm x hx hd y hy)
    rwa [List.append_assoc] at this
  rw [this]
  dsimp only [Option.map]
  by_cases h : x = c!"--" ∨ x = c!"-="
  · rw [if_pos h, if_pos h]
    rcases h with rfl | rfl <;> rfl
  · rw [if_neg h, if_neg h, List.drop_left]

theorem afterOperator_end {r : Str} : afterOperator (' ' :: '(' :: r) = .ok ([], ' ' :: '(' :: r) := by
  unfold afterOperator
  rw [skipChar_cons (by decide), Out.bind_ok]
  dsimp only
  rw [if_neg (by decide), skipChar_cons (by decide), Out.bind_ok]
  rfl

theorem afterOperator_other {s : Str} (h : peek s ≠ ' ') : afterOperator s = .ok ([], s) := by
  unfold afterOperator
  rw [skipChar_not (by decide) h, Out.bind_ok]
  rfl

theorem afterOperator_space {s : Str} (h : peek s ≠ '(') : afterOperator (' ' :: s) = .ok ([' '], s) := by
  unfold afterOperator
  rw [skipChar_cons (by decide), Out.bind_ok]
  dsimp only
  rw [if_neg (by decide), skipChar_not (by decide) h, Out.bind_ok]
  rfl

/-- A chunk that consists of an operator. -/
theorem chunk_oper {x sp s r : Str} {d : Char} (hx : x ∈ cxxOperators) (hd : afterOp x d) (h : afterOperator (d :: r) = .ok (sp, s))
    (hs : peek s = ' ' ∨ peek s = '\n' ∨ peek s = '(' ∨ peek s = '<') (hsp : x = c!"--" ∨ x = c!"-=" → sp = [] ∧ s = d :: r) :
    chunk false (c!"operator" ++ (x ++ d :: r)) = .ok (some (c!"operator" ++ (x ++ sp), s)) := by
  have hs0 : peek s ≠ '\x00' := by rcases hs with h | h | h | h <;> rw [h] <;> decide
  have hs1 : ¬ chunkChars false (peek s) := by rcases hs with h | h | h | h <;> rw [h] <;> unfold chunkChars <;> decide
  have hs2 : peek s ≠ 'o' := by rcases hs with h | h | h | h <;> rw [h] <;> decide
  rw [chunk_eq]
  have key : chunkF false (c!"operator" ++ (x ++ d :: r)) = .ok (c!"operator" ++ (x ++ sp), s) := by
    show chunkLoop false (_ + 1) _ = _
    unfold chunkLoop
    rw [if_neg (show ¬ peek (c!"operator" ++ (x ++ d :: r)) = '\x00' from (show ¬ 'o' = '\x00' by decide))]
    unfold chunkOperator
    rw [parseOperator_oper hx hd]
    by_cases hx2 : x = c!"--" ∨ x = c!"-="
    · obtain ⟨rfl, rfl⟩ := hsp hx2
      obtain ⟨e, he, rfl⟩ : ∃ e, (e = '-' ∨ e = '=') ∧ x = ['-', e] := by
        rcases hx2 with rfl | rfl
        · exact ⟨'-', .inl rfl, rfl⟩
        · exact ⟨'=', .inr rfl, rfl⟩
      rw [if_pos hx2]
      dsimp only [List.tail_cons, List.cons_append, List.nil_append]
      rw [afterOperator_other (by rcases he with rfl | rfl <;> simp [peek]), Out.bind_ok, Out.bind_ok]
      dsimp only
      rw [peek_cons, if_neg (by rcases he with rfl | rfl <;> decide)]
      show (Out.ok (d :: r) >>= _) = _
      rw [Out.bind_ok, chunkLoop_fuel false _ ((d :: r).length + 1) _ (by len) (by omega)]
      have := chunkF_stop (sp := false) hs0 hs1 (operators_o _ hs2)
      rw [show chunkLoop false ((d :: r).length + 1) (d :: r) = _ from this, Out.bind_ok]
      rfl
    · rw [if_neg hx2]
      dsimp only
      rw [h, Out.bind_ok, Out.bind_ok]
      dsimp only
      rw [if_pos (chunk_stop hs0 hs1), List.append_assoc]
  rw [key]; rfl

theorem partsF_char {c : Char} {v a u : Str} (hc : c ∈ nameChars) (hop : parseOperator (c :: v) = none) (h : partsF v = .ok (a, u)) :
    partsF (c :: v) = .ok (c :: a, u) := by
  have hc' : chunkChars false c := .inl hc
  rw [partsF_eq, rep, namePart] at h ⊢
  cases hv : chunkF false v with
  | abort => rw [chunk_eq, hv] at h; cases h
  | ub => rw [chunk_eq, hv] at h; cases h
  | ok r =>
    obtain ⟨x, t⟩ := r
    rw [chunk_char hc' hop hv, orElse_some, Out.bind_ok]
    dsimp only
    have hx : chunk false v = .ok (if x = [] then none else some (x, t)) := by rw [chunk_eq, hv]; rfl
    have hr : Reads v (x, t) := chunkLoop_post false _ v _ hv
    by_cases h0 : x = []
    · subst h0
      have ht : t = v := hr.1
      subst ht
      have h' : partsF t = .ok (a, u) := by
        rw [partsF_eq, rep, namePart]; exact h
      rw [h', Out.bind_ok]
      rfl
    · rw [hx, if_neg h0, orElse_some, Out.bind_ok] at h
      dsimp only at h
      cases ht : partsF t with
      | abort => rw [ht] at h; cases h
      | ub => rw [ht] at h; cases h
      | ok q =>
        rw [ht, Out.bind_ok] at h
        rw [Out.bind_ok]
        cases h
        rfl

theorem partsF_end {u : Str} (h : peek u ∈ srSpace) : partsF u = .ok ([], u) := by
  have h1 : ∀ c ∈ srSpace, c ≠ '\x00' ∧ c ∉ nameChars ∧ c ≠ 'o' ∧ c ≠ '(' ∧ c ≠ '<' := by decide
  obtain ⟨a1, a2, a3, a4, a5⟩ := h1 _ h
  rw [partsF_eq, rep, namePart, chunk_stop' a1 (by rintro (h | ⟨h, -⟩); exact a2 h; cases h) (operators_o _ a3), orElse_none, braces_eq,
    template_eq, bracket_none (by decide) a4, orElse_none, bracket_none (by decide) a5]
  rfl

theorem namePart_paren {a v : Str} (ha : Nested false a) : namePart ('(' :: (a ++ ')' :: v)) = .ok (some ('(' :: (a ++ [')']), v)) := by
  rw [namePart, chunk_stop' (by rw [peek_cons]; decide) (by rw [peek_cons]; unfold chunkChars; decide)
    (operators_o _ (by rw [peek_cons]; decide)), orElse_none, braces_eq,
    bracket_some (by decide) (by decide) (innerF_nested ha (')' :: v) (.inl rfl)), orElse_some]

theorem namePart_angle {a v : Str} (ha : Nested true a) : namePart ('<' :: (a ++ '>' :: v)) = .ok (some ('<' :: (a ++ ['>']), v)) := by
  rw [namePart, chunk_stop' (by rw [peek_cons]; decide) (by rw [peek_cons]; unfold chunkChars; decide)
    (operators_o _ (by rw [peek_cons]; decide)), orElse_none, braces_eq, template_eq, bracket_none (by decide) (by rw [peek_cons]; decide),
    orElse_none, bracket_some (by decide) (by decide) (innerF_nested ha ('>' :: v) (.inr rfl))]

theorem partsF_step {v x s t u : Str} (h : namePart v = .ok (some (x, s))) (hs : partsF s = .ok (t, u)) : partsF v = .ok (x ++ t, u) := by
  rw [partsF_eq, rep, h, Out.bind_ok]
  dsimp only
  rw [hs]; rfl

/-- What follows a name: white space; after an operator one space before the arguments, or a newline. -/
def AfterName (o : Bool) (u : Str) : Prop := peek u ∈ srSpace ∧ (o = true → (∃ r, u = ' ' :: '(' :: r) ∨ peek u = '\n')

theorem cxx_dash {x : Str} (h : x = c!"--" ∨ x = c!"-=") : x.getLast? ≠ some '<' := by rcases h with rfl | rfl <;> decide

/-- The parts of a name are read completely. -/
theorem partsF_name {o : Bool} {s : Str} (h : Name o s) : ∀ u, AfterName o u → partsF (s ++ u) = .ok (s, u) := by
  induction h with
  | nil => intro u hu; exact partsF_end hu.1
  | char hc ho hs ih =>
    intro u hu
    refine partsF_char hc (notOperator ho ?_) (ih u hu)
    have : ∀ c ∈ srSpace, c ∉ c!"operator" := by decide
    exact this _ hu.1
  | paren ha hs ih =>
    intro u hu
    rw [List.cons_append, List.append_assoc, List.cons_append, partsF_step (namePart_paren ha) (ih u hu)]
    simp
  | angle ha hs ih =>
    intro u hu
    rw [List.cons_append, List.append_assoc, List.cons_append, partsF_step (namePart_angle ha) (ih u hu)]
    simp
  | @oper x ho hx =>
    intro u hu
    have hp : namePart (c!"operator" ++ (x ++ u)) = .ok (some (c!"operator" ++ x, u)) := by
      rw [namePart]
      rcases hu.2 ho with ⟨r, rfl⟩ | h
      · rw [chunk_oper hx (.inl rfl) afterOperator_end (.inl rfl) fun _ => ⟨rfl, rfl⟩, List.append_nil, orElse_some]
      · obtain ⟨r, rfl⟩ := peek_split h (by decide)
        rw [chunk_oper hx (.inr (.inl rfl)) (afterOperator_other (by rw [peek_cons]; decide)) (.inr (.inl rfl)) fun _ => ⟨rfl, rfl⟩,
          List.append_nil, orElse_some]
    rw [List.append_assoc, partsF_step hp (partsF_end hu.1), List.append_nil]
  | @operAngle x a s ho hx ha hs ih =>
    intro u hu
    have hstep : partsF ('<' :: (a ++ '>' :: (s ++ u))) = .ok ('<' :: (a ++ '>' :: s), u) := by
      rw [partsF_step (namePart_angle ha) (ih u hu)]; simp
    by_cases hl : x.getLast? = some '<'
    · rw [if_pos hl]
      have hp : namePart (c!"operator" ++ (x ++ ' ' :: '<' :: (a ++ '>' :: (s ++ u)))) =
          .ok (some (c!"operator" ++ (x ++ [' ']), '<' :: (a ++ '>' :: (s ++ u)))) := by
        rw [namePart, chunk_oper hx (.inl rfl) (afterOperator_space (by rw [peek_cons]; decide)) (.inr (.inr (.inr rfl)))
          (fun h => absurd hl (cxx_dash h)), orElse_some]
      have := partsF_step hp hstep
      simpa using this
    · rw [if_neg hl]
      have hp : namePart (c!"operator" ++ (x ++ '<' :: (a ++ '>' :: (s ++ u)))) =
          .ok (some (c!"operator" ++ (x ++ []), '<' :: (a ++ '>' :: (s ++ u)))) := by
        rw [namePart, chunk_oper hx (.inr (.inr (.inr ⟨rfl, hl⟩))) (afterOperator_other (by rw [peek_cons]; decide)) (.inr (.inr (.inr rfl)))
          (fun _ => ⟨rfl, rfl⟩), orElse_some]
      have := partsF_step hp hstep
      simpa using this
  | @operParen x a s ho hx ha hs ih =>
    intro u hu
    have hstep : partsF ('(' :: (a ++ ')' :: (s ++ u))) = .ok ('(' :: (a ++ ')' :: s), u) := by
      rw [partsF_step (namePart_paren ha) (ih u hu)]; simp
    have hp : namePart (c!"operator" ++ (x ++ '(' :: (a ++ ')' :: (s ++ u)))) =
        .ok (some (c!"operator" ++ (x ++ []), '(' :: (a ++ ')' :: (s ++ u)))) := by
      rw [namePart, chunk_oper hx (.inr (.inr (.inl rfl))) (afterOperator_other (by rw [peek_cons]; decide)) (.inr (.inr (.inl rfl)))
        (fun _ => ⟨rfl, rfl⟩), orElse_some]
    have := partsF_step hp hstep
    simpa using this

/-! ## Tests -/

theorem notOperator_of {s : Str} (h : startsWith s c!"operator" = false) : NotOperator s := by
  intro t ht
  rw [(startsWith_split s _).2 ⟨t, ht⟩] at h
  cases h

theorem Name.chars {o : Bool} {s : Str} (hs : Name o s) : ∀ {a : Str}, (∀ c ∈ a, c ∈ nameChars ∧ c ≠ 'o') → Name o (a ++ s)
  | [], _ => hs
  | c :: a, h => .char (h c (by simp)).1 (fun t ht => absurd (List.cons.inj ht).1 (h c (by simp)).2)
      (Name.chars hs fun d hd => h d (by simp [hd]))

theorem Nested.chars {t : Bool} {s : Str} (hs : Nested t s) (hw : ∀ t, s ≠ c!" [with " ++ t) :
    ∀ {a : Str}, (∀ c ∈ a, c ∈ nameChars ∧ c ≠ 'o') → Nested t (a ++ s)
  | [], _ => hs
  | c :: a, h => by
    have hn : ∀ (c : Char) (v t : Str), c ∈ nameChars → c :: v ≠ c!" [with " ++ t := fun c v t hc ht => by
      rw [(List.cons.inj ht).1] at hc
      exact absurd hc (by decide)
    refine .char (.inl (h c (by simp)).1) (fun t ht => absurd (List.cons.inj ht).1 (h c (by simp)).2) (fun t => hn _ _ t (h c (by simp)).1)
      (fun t => ?_) (Nested.chars hs hw fun d hd => h d (by simp [hd]))
    cases a with
    | nil => exact hw t
    | cons d a => exact hn _ _ t (h d (by simp)).1

theorem noWith_of {s : Str} (h : (c!" [with ").isPrefixOf s = false) (t : Str) : s ≠ c!" [with " ++ t := by
  rintro rfl
  rw [List.isPrefixOf_iff_prefix.2 (List.prefix_append _ _)] at h
  cases h

example : Name true c!"a::pair<int, b<c> >::f(int)" :=
  Name.chars (a := c!"a::pair") (.angle (a := c!"int, b<c> ")
    (Nested.chars (a := c!"int,") (.char (.inr rfl) (notOperator_of (by decide)) (noWith_of rfl) (noWith_of rfl)
      (Nested.chars (a := c!"b") (.angle (a := c!"c") (Nested.chars (a := c!"c") .nil (noWith_of rfl) (by decide))
        (.char (.inr rfl) (notOperator_of (by decide)) (noWith_of rfl) (noWith_of rfl) .nil)) (noWith_of rfl) (by decide))) (noWith_of rfl)
      (by decide))
    (Name.chars (a := c!"::f") (.paren (a := c!"int") (Nested.chars (a := c!"int") .nil (noWith_of rfl) (by decide)) .nil) (by decide)))
    (by decide)

example : Name true c!"std::operator<< <char>" :=
  Name.chars (a := c!"std::") (.operAngle (x := c!"<<") (a := c!"char") rfl (by decide)
    (Nested.chars (a := c!"char") .nil (noWith_of rfl) (by decide)) .nil) (by decide)

example : Name true c!"A::operator()(int)" :=
  Name.chars (a := c!"A::") (.operParen (x := c!"()") (a := c!"int") rfl (by decide)
    (Nested.chars (a := c!"int") .nil (noWith_of rfl) (by decide)) .nil) (by decide)

theorem Balanced.chars {s : Str} (hs : Balanced s) : ∀ {a : Str}, (∀ c ∈ a, c ≠ '[' ∧ c ≠ ']') → Balanced (a ++ s)
  | [], _ => hs
  | c :: a, h => .char (h c (by simp)) (Balanced.chars hs fun d hd => h d (by simp [hd]))

/-- Names of functions that instantiate templates. -/
example : Name true c!"f<g(T) [with T = int [3]]>" :=
  Name.chars (a := c!"f") (.angle (a := c!"g(T) [with T = int [3]]")
    (Nested.chars (a := c!"g") (.paren (a := c!"T") (Nested.chars (a := c!"T") .nil (noWith_of rfl) (by decide))
      (.args (a := c!"T = int [3]") (Balanced.chars (a := c!"T = int ") (.square (a := c!"3") (Balanced.chars (a := c!"3") .nil (by decide)) .nil)
        (by decide)) .nil)) (noWith_of rfl) (by decide)) .nil) (by decide)

end Satyr.Gdb
