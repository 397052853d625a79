import Verif.Gdb.FrameCalls
/-!
# Complete frames as printed by gdb, and what is read from them
-/
namespace Satyr.Gdb
open Satyr.CStr Satyr.Normalize Satyr.Frames

/-! ## Specification -/

/-- The name of a shared object: after some `/lib` there is `.so.`, or it ends with `.so`. -/
def SharedObject (name : Str) : Prop :=
  ∃ a b, name = a ++ (c!"/lib" ++ b) ∧ ((∃ x y, b = x ++ (c!".so." ++ y)) ∨ ∃ x, b = x ++ c!".so")

/-- The file that is stored: shared objects are not. -/
def StoredFile (name : Str) (file : Option Str) : Prop := (SharedObject name ∧ file = none) ∨ (¬ SharedObject name ∧ file = some name)

/-- `k + 1` spaces. -/
def sp (k : Nat) : Str := List.replicate (k + 1) ' '

/-- The text of a source location, the file, the line and what follows the text. -/
inductive LocationText : Str → Option Str → Nat → Str → Prop
  | none {a b : Str} (ha : ∀ c ∈ a, c ∈ c!" \n") (hb : peek b ∉ c!" \n") (h1 : ∀ v, b ≠ c!"at" ++ v) (h2 : ∀ v, b ≠ c!"from" ++ v) :
      LocationText [] none (2 ^ 32 - 1) (a ++ b)
  | file {w kw name rest : Str} {k : Nat} {file : Option Str} (hw : w ≠ [] ∧ ∀ c ∈ w, c ∈ c!" \n") (hk : kw = c!"at" ∨ kw = c!"from")
      (hn : name ≠ [] ∧ ∀ c ∈ name, c ∈ fileChars) (hf : StoredFile name file) (hr : peek rest ∉ ':' :: fileChars) :
      LocationText (w ++ (kw ++ (sp k ++ name))) file (2 ^ 32 - 1) rest
  | line {w kw name ds rest : Str} {k : Nat} {file : Option Str} (hw : w ≠ [] ∧ ∀ c ∈ w, c ∈ c!" \n") (hk : kw = c!"at" ∨ kw = c!"from")
      (hn : name ≠ [] ∧ ∀ c ∈ name, c ∈ fileChars) (hf : StoredFile name file) (hd : ds ≠ [] ∧ ∀ c ∈ ds, IsDec c = true)
      (hv : decValue ds < 2 ^ 32) (hr : IsDec (peek rest) = false) :
      LocationText (w ++ (kw ++ (sp k ++ (name ++ ':' :: ds)))) file (decValue ds) rest

/-- The text before a function, and the address. -/
inductive AddressText : Str → Nat → Str → Prop
  | none {fn : Str} (h : ∀ v, fn ≠ c!"0x" ++ v) : AddressText [] (2 ^ 64 - 1) fn
  | some {hs fn : Str} {k₁ k₂ : Nat} (hh : hs ≠ [] ∧ ∀ c ∈ hs, IsHex c = true) (hv : hexValue hs < 2 ^ 64) (h : ∀ v, fn ≠ c!"vtable" ++ v) :
      AddressText (c!"0x" ++ (hs ++ (sp k₁ ++ (c!"in" ++ sp k₂)))) (hexValue hs) fn
  | vtable {hs fn : Str} {k₁ k₂ k₃ k₄ : Nat} (hh : hs ≠ [] ∧ ∀ c ∈ hs, IsHex c = true) (hv : hexValue hs < 2 ^ 64) :
      AddressText (c!"0x" ++ (hs ++ (sp k₁ ++ (c!"in" ++ (sp k₂ ++ (c!"vtable" ++ (sp k₃ ++ (c!"for" ++ sp k₄)))))))) (hexValue hs) fn

/-- The first lines of a frame, and what follows them. -/
inductive FrameText : GdbFrame → Str → Str → Prop
  | call {ds addr fn name w a loc rest : Str} {k address line : Nat} {type file : Option Str}
      (hd : ds ≠ [] ∧ ∀ c ∈ ds, IsDec c = true) (hv : decValue ds < 2 ^ 32) (haddr : AddressText addr address fn)
      (hf : FunctionText fn name type) (hw : Separator w) (ha : Args a) (hc : ∀ x y, a ++ c!")" ≠ x ++ (c!"(truncated)" ++ y))
      (hl : LocationText loc file line rest) :
      FrameText
        { newFrame with
            number := decValue ds, address := address, functionName := some name, functionType := type
            sourceFile := file, sourceLine := line }
        ('#' :: (ds ++ (sp k ++ (addr ++ (fn ++ (w ++ '(' :: (a ++ ')' :: loc))))))) rest
  | signal {ds rest : Str} {k : Nat} (hd : ds ≠ [] ∧ ∀ c ∈ ds, IsDec c = true) (hv : decValue ds < 2 ^ 32) :
      FrameText { newFrame with number := decValue ds, signalHandlerCalled := true }
        ('#' :: (ds ++ (sp k ++ c!"<signal handler called>"))) rest

/-! ## Shared objects -/

/-- A word that begins with a point cannot begin inside of `/lib`. -/
theorem lib_split {b x r : Str} (h : c!"/lib" ++ b = x ++ '.' :: r) : ∃ x', x = c!"/lib" ++ x' ∧ b = x' ++ '.' :: r := by
  rcases List.append_eq_append_iff.1 h with ⟨c, h1, h2⟩ | ⟨c, h1, h2⟩
  · exact ⟨c, h1, h2⟩
  · cases c with
    | nil => exact ⟨[], by simpa using h1.symm, by simpa using h2.symm⟩
    | cons e c =>
      have he : '.' = e := (List.cons.inj h2).1
      have : e ∈ c!"/lib" := by rw [h1]; simp
      rw [← he] at this
      exact absurd this (by decide)

theorem so_end (l : Str) : l.drop (l.length - 3) = c!".so" ↔ ∃ x, l = x ++ c!".so" := by
  constructor
  · intro h
    exact ⟨l.take (l.length - 3), by rw [← h, List.take_append_drop]⟩
  · rintro ⟨x, rfl⟩
    rw [show (x ++ c!".so").length - 3 = x.length by len, List.drop_left]

/-- Shared objects are not stored as source files; all other files are. -/
theorem sourceName_none (name : Str) : sourceName name = none ↔ SharedObject name := by
  unfold sourceName
  cases hi : strstrI c!"/lib" name with
  | none =>
    dsimp only
    refine ⟨fun h => (by cases h), ?_⟩
    rintro ⟨a, b, h, -⟩
    exact absurd ⟨a, b, by rw [h]; simp⟩ (strstrI_none hi)
  | some i =>
    obtain ⟨⟨a, b, h1, h2⟩, h3⟩ := strstrI_some hi
    have hd : name.drop i = c!"/lib" ++ b := by rw [h1, ← h2, List.append_assoc, List.drop_left]
    dsimp only
    rw [hd]
    have : ∀ (p : Prop) [Decidable p], (if p then none else some name) = none ↔ p := by
      intro p _
      split <;> simp [*]
    rw [this, so_end, Satyr.CStr.strstrHas_iff]
    constructor
    · rintro (⟨x, y, h⟩ | ⟨x, h⟩)
      · rw [List.append_assoc] at h
        obtain ⟨x', -, hb⟩ := lib_split h
        exact ⟨a, b, by rw [h1, List.append_assoc], .inl ⟨x', y, hb⟩⟩
      · obtain ⟨x', -, hb⟩ := lib_split h
        exact ⟨a, b, by rw [h1, List.append_assoc], .inr ⟨x', hb⟩⟩
    · rintro ⟨a', b', h, hso⟩
      have hle := h3 a' b' (by rw [h, List.append_assoc])
      have hsplit : ∃ z, c!"/lib" ++ b = z ++ (c!"/lib" ++ b') := by
        refine ⟨a'.drop i, ?_⟩
        rw [← hd, h, List.drop_append_of_le_length hle]
      obtain ⟨z, hz⟩ := hsplit
      rw [hz]
      rcases hso with ⟨x, y, hb⟩ | ⟨x, hb⟩
      · exact .inl ⟨z ++ (c!"/lib" ++ x), y, by rw [hb]; simp⟩
      · exact .inr ⟨z ++ (c!"/lib" ++ x), by rw [hb]; simp⟩

theorem StoredFile.eq {name : Str} {file : Option Str} (h : StoredFile name file) : sourceName name = file := by
  rcases h with ⟨h1, h2⟩ | ⟨h1, h2⟩
  · rw [(sourceName_none name).2 h1, h2]
  · cases hs : sourceName name with
    | none => exact absurd ((sourceName_none name).1 hs) h1
    | some f => rw [sourceName_some hs, h2]

/-! ## Parts are read -/

theorem skipSpaces (k : Nat) {s : Str} (h : peek s ≠ ' ') : skipCharSequence (sp k ++ s) ' ' = .ok (k + 1, s) := by
  unfold skipCharSequence sp
  rw [skipCharSequence_go (by decide) _ _ _ (by omega)]
  have := takeWhile_append_stop (p := fun c => c == ' ') (a := List.replicate (k + 1) ' ') (b := s)
    (fun c hc => by simpa using List.eq_of_mem_replicate hc) (by simpa using h)
  rw [this.1, this.2, List.length_replicate, Nat.zero_add]

theorem wordSpace_read {word : Str} (hne : word ≠ []) (k : Nat) {s : Str} (h : peek s ≠ ' ') :
    wordSpace word (word ++ (sp k ++ s)) = .ok (some s) := by
  unfold wordSpace
  rw [skipString_append, if_neg (by simpa using hne)]
  dsimp only
  rw [skipSpaces k h, Out.bind_ok]
  rfl

theorem vtable_no {s : Str} (h : ∀ v, s ≠ c!"vtable" ++ v) : vtableFor s = .ok (some s) := by
  unfold vtableFor
  rcases skipString_cases s c!"vtable" with ⟨b, hb, -⟩ | hb
  · exact absurd hb (h b)
  · rw [hb]; rfl

theorem hex0x_read {hs rest : Str} (hh : hs ≠ [] ∧ ∀ c ∈ hs, IsHex c = true) (hv : hexValue hs < 2 ^ 64) (hr : IsHex (peek rest) = false) :
    parseHex0xUint64 (c!"0x" ++ (hs ++ rest)) = .ok (2 + hs.length, some (hexValue hs), rest) := by
  rw [C26_hex0x]
  have := (takeWhile_append_stop hh.2 hr).1
  change Out.ok (if (hs ++ rest).takeWhile IsHex ≠ [] ∧ hexValue ((hs ++ rest).takeWhile IsHex) < 2 ^ 64 then
    (2 + ((hs ++ rest).takeWhile IsHex).length, some (hexValue ((hs ++ rest).takeWhile IsHex)),
      (hs ++ rest).drop ((hs ++ rest).takeWhile IsHex).length) else _) = _
  rw [this, if_pos ⟨hh.1, hv⟩, List.drop_left]

theorem hex0x_no {s : Str} (h : ∀ v, s ≠ c!"0x" ++ v) : parseHex0xUint64 s = .ok (0, none, s) := by
  rcases hex0x_cases s with ⟨ds, t, hs, -⟩ | hs
  · exact absurd hs (h _)
  · exact hs

theorem FunctionText.peek {fn name : Str} {t : Option Str} (h : FunctionText fn name t) (u : Str) : CStr.peek (fn ++ u) ≠ ' ' := by
  have key : ∀ n : Str, Begins n → ∀ v, CStr.peek (n ++ v) ≠ ' ' := by
    intro n hb v
    cases n with
    | nil => exact absurd hb (by unfold Begins; decide)
    | cons c n =>
      rintro he
      have : c = ' ' := he
      subst this
      exact absurd hb (by unfold Begins; simp only [peek_cons]; decide)
  cases h with
  | unknown => exact (show '?' ≠ ' ' by decide)
  | plain hn hb => exact key _ hb _
  | const hn hb => rw [List.append_assoc]; exact key _ hb _
  | typed ht hb => rw [List.append_assoc]; exact key _ hb _
  | typedConst ht hb => rw [List.append_assoc]; exact key _ hb _

theorem sp_hex (k : Nat) (s : Str) : IsHex (CStr.peek (sp k ++ s)) = false := by
  show IsHex ' ' = false
  decide

/-- A function with its address is read. -/
theorem address_read {addr fn name w a : Str} {address : Nat} {t : Option Str} (haddr : AddressText addr address fn)
    (hf : FunctionText fn name t) (hw : Separator w) (ha : Args a) (hc : ∀ x y, a ++ c!")" ≠ x ++ (c!"(truncated)" ++ y)) (u : Str) :
    addressInFunction (addr ++ (fn ++ (w ++ '(' :: (a ++ ')' :: u)))) = .ok (address, some ((name, t), u)) := by
  have hcall := functionCall_read hf hw ha hc u
  have hpk : ∀ (p : Str), (∀ v, fn ≠ p ++ v) → (∀ c ∈ c!" \n", c ∉ p) → ∀ v, fn ++ (w ++ '(' :: (a ++ ')' :: u)) ≠ p ++ v := by
    intro p hp hm v hv
    obtain ⟨d, w', rfl, hd, -⟩ := hw.split
    obtain ⟨t, ht, -⟩ := prefix_append hv (hm d (by rcases hd with rfl | rfl <;> decide))
    exact hp t ht
  unfold addressInFunction
  cases haddr with
  | none h =>
    rw [List.nil_append, hex0x_no (hpk c!"0x" h (by decide)), Out.bind_ok, if_pos rfl, hcall, Out.bind_ok]
  | @some hs fn k₁ k₂ hh hv h =>
    have := hf.peek (w ++ '(' :: (a ++ ')' :: u))
    simp only [List.append_assoc]
    rw [hex0x_read hh hv (sp_hex _ _), Out.bind_ok, if_neg (by dsimp only; omega)]
    unfold afterAddress
    rw [skipSpaces k₁ (s := c!"in" ++ _) (show 'i' ≠ ' ' by decide), Out.bind_ok]
    dsimp only
    rw [if_neg (by omega), wordSpace_read (by simp) k₂ this, Out.bind_ok]
    dsimp only
    rw [vtable_no (hpk c!"vtable" h (by decide)), Out.bind_ok]
    dsimp only
    rw [hcall, Out.bind_ok]
    rfl
  | @vtable hs fn k₁ k₂ k₃ k₄ hh hv =>
    have := hf.peek (w ++ '(' :: (a ++ ')' :: u))
    simp only [List.append_assoc]
    rw [hex0x_read hh hv (sp_hex _ _), Out.bind_ok, if_neg (by dsimp only; omega)]
    unfold afterAddress
    rw [skipSpaces k₁ (s := c!"in" ++ _) (show 'i' ≠ ' ' by decide), Out.bind_ok]
    dsimp only
    rw [if_neg (by omega), wordSpace_read (by simp) k₂ (s := c!"vtable" ++ _) (show 'v' ≠ ' ' by decide), Out.bind_ok]
    dsimp only
    unfold vtableFor
    rw [skipString_append, if_neg (by simp), wordSpace_read (by simp) k₃ (s := c!"for" ++ _) (show 'f' ≠ ' ' by decide), Out.bind_ok]
    dsimp only
    rw [wordSpace_read (by simp) k₄ this, Out.bind_ok]
    dsimp only
    rw [hcall, Out.bind_ok]
    rfl

theorem parseSpan_append {a b set : Str} (ha : ∀ c ∈ a, c ∈ set) (hb : CStr.peek b ∉ set) (hne : a ≠ []) :
    parseCharSpan (a ++ b) set = .ok (some a, b) := by
  have := takeWhile_append_stop (p := fun c => set.contains c) (a := a) (b := b) (fun c hc => by simpa using ha c hc)
    (by simpa using hb)
  rw [parseCharSpan_eq, this.1, this.2, if_neg hne]

theorem skipString_other {s a : Str} (h : ∀ v, s ≠ a ++ v) : skipString s a = (0, s) := by
  rcases skipString_cases s a with ⟨b, hb, -⟩ | hb
  · exact absurd hb (h b)
  · exact hb

theorem fileKeyword_read {kw : Str} (hk : kw = c!"at" ∨ kw = c!"from") (k : Nat) {s : Str} (h : CStr.peek s ≠ ' ') :
    fileKeyword (kw ++ (sp k ++ s)) = .ok (some s) := by
  unfold fileKeyword
  rcases hk with rfl | rfl
  · rw [skipString_append, if_neg (by simp), wordSpace_read (by simp) k h]
  · rw [skipString_other (by intro v hv; exact absurd (List.cons.inj hv).1 (by decide)), if_pos rfl, wordSpace_read (by simp) k h]

theorem fileChars_space {name u : Str} (h : name ≠ [] ∧ ∀ c ∈ name, c ∈ fileChars) : CStr.peek (name ++ u) ≠ ' ' := by
  cases name with
  | nil => exact absurd rfl h.1
  | cons c name =>
    intro he
    have hc : c = ' ' := he
    have := h.2 c (by simp)
    rw [hc] at this
    exact absurd this (by decide)

theorem kw_peek {kw : Str} (hk : kw = c!"at" ∨ kw = c!"from") (u : Str) : CStr.peek (kw ++ u) ∉ c!" \n" := by
  rcases hk with rfl | rfl
  · exact (show 'a' ∉ c!" \n" by decide)
  · exact (show 'f' ∉ c!" \n" by decide)

/-- The location is read, or there is none. -/
theorem location_read {loc rest : Str} {file : Option Str} {line : Nat} (h : LocationText loc file line rest) :
    (fileLocation (loc ++ rest) = .ok (some (file, line, rest))) ∨
      (loc = [] ∧ file = none ∧ line = 2 ^ 32 - 1 ∧ fileLocation rest = .ok none) := by
  cases h with
  | @none a b ha hb h1 h2 =>
    refine .inr ⟨rfl, rfl, rfl, ?_⟩
    unfold fileLocation
    rw [skipSpan_append ha hb, Out.bind_ok]
    by_cases h0 : a.length = 0
    · rw [if_pos h0]
    · rw [if_neg h0]
      have : fileKeyword b = .ok Option.none := by
        unfold fileKeyword wordSpace
        rw [skipString_other h1, if_pos rfl, skipString_other h2, if_pos rfl]
      dsimp only
      rw [this]
      rfl
  | @file w kw name rest k file hw hk hn hf hr =>
    rw [List.mem_cons, not_or] at hr
    refine .inl ?_
    simp only [List.append_assoc]
    unfold fileLocation
    rw [skipSpan_append hw.2 (kw_peek hk _), Out.bind_ok, if_neg (by simpa using hw.1)]
    dsimp only
    rw [fileKeyword_read hk k (fileChars_space hn), Out.bind_ok]
    dsimp only
    rw [parseSpan_append hn.2 hr.2 hn.1, Out.bind_ok]
    dsimp only
    unfold fileLine
    rw [skipChar_not (by decide) hr.1, Out.bind_ok, if_pos rfl, Out.bind_ok, hf.eq]
  | @line w kw name ds rest k file hw hk hn hf hd hv hr =>
    refine .inl ?_
    simp only [List.append_assoc, List.cons_append]
    unfold fileLocation
    rw [skipSpan_append hw.2 (kw_peek hk _), Out.bind_ok, if_neg (by simpa using hw.1)]
    dsimp only
    rw [fileKeyword_read hk k (fileChars_space hn), Out.bind_ok]
    dsimp only
    rw [parseSpan_append (b := ':' :: _) hn.2 (show ':' ∉ fileChars by decide) hn.1, Out.bind_ok]
    dsimp only
    unfold fileLine
    rw [skipChar_cons (by decide), Out.bind_ok]
    dsimp only
    rw [if_neg (by decide), parseUint32_digits hd.2 hd.1 hv hr, Out.bind_ok]
    dsimp only
    rw [if_neg (by simpa using hd.1), Out.bind_ok, hf.eq]
    rfl

theorem dec_space (k : Nat) (s : Str) : IsDec (CStr.peek (sp k ++ s)) = false := by
  show IsDec ' ' = false
  decide

theorem frameStart_read {ds s : Str} (k : Nat) (hd : ds ≠ [] ∧ ∀ c ∈ ds, IsDec c = true) (hv : decValue ds < 2 ^ 32)
    (hs : CStr.peek s ≠ ' ') : frameStart ('#' :: (ds ++ (sp k ++ s))) = .ok (some (decValue ds, s)) := by
  unfold frameStart
  rw [skipChar_cons (by decide), Out.bind_ok]
  dsimp only
  rw [if_neg (by decide), parseUint32_digits hd.2 hd.1 hv (dec_space _ _), Out.bind_ok]
  dsimp only
  rw [if_neg (by simpa using hd.1), skipSpaces k hs, Out.bind_ok]
  rfl

theorem AddressText.peek {addr fn name : Str} {address : Nat} {t : Option Str} (h : AddressText addr address fn)
    (hf : FunctionText fn name t) (u : Str) : CStr.peek (addr ++ (fn ++ u)) ≠ ' ' := by
  cases h with
  | none => exact hf.peek u
  | some => exact (show '0' ≠ ' ' by decide)
  | vtable => exact (show '0' ≠ ' ' by decide)

theorem signal_call (rest : Str) : functionCall (c!"<signal handler called>" ++ rest) = .ok none := by
  unfold functionCall functionName nameStart
  have h1 : parseString (c!"<signal handler called>" ++ rest) c!"??" = (none, c!"<signal handler called>" ++ rest) := by
    rcases parseString_cases (c!"<signal handler called>" ++ rest) c!"??" with ⟨b, hb, -⟩ | h
    · exact absurd (List.cons.inj hb).1 (by decide)
    · exact h
  rw [h1]
  dsimp only
  rw [parseCharLimited_not (s := c!"<signal handler called>" ++ rest) (show '<' ∉ firstChars by decide), Out.bind_ok]
  dsimp only
  rw [braces_eq, bracket_none (s := c!"<signal handler called>" ++ rest) (by decide) (show '<' ≠ '(' by decide)]
  rfl

/-- C71: the first lines of a frame as gdb prints them are read: the number, the address, the function with its type, the source
file and the line are the ones in the text, and reading goes on behind them. -/
theorem C71_read_partial {f : GdbFrame} {s rest : Str} (h : FrameText f s rest) : parseHeader (s ++ rest) = .ok (some (f, rest)) := by
  unfold parseHeader
  cases h with
  | @call ds addr fn name w a loc rest k address line type file hd hv haddr hf hw ha hc hl =>
    simp only [List.append_assoc, List.cons_append]
    rw [frameStart_read k hd hv (haddr.peek hf _), Out.bind_ok]
    dsimp only
    rw [address_read haddr hf hw ha hc, Out.bind_ok]
    dsimp only
    rcases location_read hl with h | ⟨rfl, rfl, rfl, h⟩
    · rw [h, Out.bind_ok]; rfl
    · rw [List.nil_append, h, Out.bind_ok]; rfl
  | @signal ds rest k hd hv =>
    simp only [List.append_assoc, List.cons_append]
    have : addressInFunction (c!"<signal handler called>" ++ rest) = .ok (2 ^ 64 - 1, none) := by
      unfold addressInFunction
      rw [hex0x_no (by intro v hv; exact absurd (List.cons.inj hv).1 (by decide)), Out.bind_ok, if_pos rfl, signal_call, Out.bind_ok]
    show frameStart ('#' :: (ds ++ (sp k ++ (c!"<signal handler called>" ++ rest)))) >>= _ = _
    rw [frameStart_read (s := c!"<signal handler called>" ++ rest) k hd hv (show '<' ≠ ' ' by decide), Out.bind_ok]
    dsimp only
    rw [this, Out.bind_ok]
    dsimp only
    unfold headerWithoutAddress
    rw [signal_call, Out.bind_ok]
    dsimp only
    rw [skipString_append, if_pos (by simp)]
    rfl

/-! ## The end of a frame -/

/-- The text of a frame after its first lines does not contain the beginning of another frame or thread. -/
def NoBreak (s : Str) : Prop := ∀ a b, s ≠ a ++ (c!"\n#" ++ b) ∧ s ≠ a ++ (c!"\nThread" ++ b)

/-- What follows a frame: nothing, or a newline and another frame or thread. -/
def NextStart (s : Str) : Prop := (∃ v, s = '#' :: v) ∨ ∃ v, s = c!"Thread" ++ v

theorem findNext_read {t : Str} (ht : t = [] ∨ ∃ u, t = '\n' :: u ∧ NextStart u) : ∀ x : Str, NoBreak x → findNext (x ++ t) = t
  | [], _ => by
    rcases ht with rfl | ⟨u, rfl, ⟨v, rfl⟩ | ⟨v, rfl⟩⟩
    · rfl
    · rfl
    · rfl
  | c :: x, hx => by
    have hpt : CStr.peek t ∉ c!"#Thread" := by
      rcases ht with rfl | ⟨u, rfl, -⟩
      · decide
      · exact (show '\n' ∉ c!"#Thread" by decide)
    have key : ∀ p : Str, (∀ d ∈ p, d ∈ c!"#Thread") → (∀ b, c :: x ≠ '\n' :: (p ++ b)) → startsWith (c :: (x ++ t)) ('\n' :: p) = false := by
      intro p hp hb
      by_contra hc
      obtain ⟨v, hv⟩ := (startsWith_split _ _).1 (by simpa using hc)
      rw [List.cons_append, List.cons.injEq] at hv
      obtain ⟨t', ht', -⟩ := prefix_append hv.2 (fun h => hpt (hp _ h))
      exact hb t' (by rw [hv.1, ht'])
    rw [List.cons_append, findNext, key c!"#" (by decide) (fun b h => (hx [] b).1 (by simpa using h)),
      key c!"Thread" (by decide) (fun b h => (hx [] b).2 (by simpa using h)), if_neg (by decide)]
    exact findNext_read ht x fun a b => ⟨fun h => (hx (c :: a) b).1 (by rw [h]; rfl), fun h => (hx (c :: a) b).2 (by rw [h]; rfl)⟩

/-- C71: a frame with its first lines `s` and more text `v`, say its variables, is read, and reading goes on at the next frame or
thread. -/
theorem C71_frame_read_partial {f : GdbFrame} {s v u : Str} (h : FrameText f s (v ++ '\n' :: u)) (hb : NoBreak (s ++ v)) (hu : NextStart u) :
    parseFrame (s ++ (v ++ '\n' :: u)) = .ok (some (f, u)) := by
  unfold parseFrame
  rw [C71_read_partial h, Out.bind_ok]
  dsimp only
  rw [← List.append_assoc, findNext_read (.inr ⟨u, rfl, hu⟩) _ hb, peek_cons, if_neg (show ¬ '\n' = '\x00' by decide)]
  rfl

/-- C71: the same for the last frame of a text. -/
theorem C71_last_frame_read_partial {f : GdbFrame} {s v : Str} (h : FrameText f s v) (hb : NoBreak (s ++ v)) :
    parseFrame (s ++ v) = .ok (some (f, [])) := by
  unfold parseFrame
  rw [C71_read_partial h, Out.bind_ok]
  dsimp only
  have := findNext_read (.inl rfl) _ hb
  rw [List.append_nil] at this
  rw [this]
  rfl

/-- A location, arguments in brackets and quotes, a type and template arguments. -/
example : FrameText { newFrame with number := 12, address := 255, functionName := some c!"f<int> const", functionType := some c!"v*", sourceFile := some c!"../a.c", sourceLine := 7 }
    c!"#12 0xff in v* f<int> const (x=(1), s=\"a)\\\"\") at ../a.c:7" c!"\n        i = 1\n#13 " := by
  refine FrameText.call (ds := c!"12") (k := 0) (addr := c!"0xff in ") (fn := c!"v* f<int> const") (w := c!" ")
    (a := c!"x=(1), s=\"a)\\\"\"") (loc := c!" at ../a.c:7") (by decide) (by decide) (.some (hs := c!"ff") (k₁ := 0) (k₂ := 0) (by decide) (by decide) ?_)
    (.typedConst (t := c!"v*") (n := c!"f<int>") (Name.chars (a := c!"v*") .nil (by decide)) (.inl (by decide))
      (Name.chars (a := c!"f") (.angle (a := c!"int") (Nested.chars (a := c!"int") .nil (noWith_of rfl) (by decide)) .nil) (by decide)) (by decide) ?_)
    (.inl rfl) ?_ ?_ (.line (w := c!" ") (kw := c!"at") (k := 0) (name := c!"../a.c") (ds := c!"7") (by decide) (.inl rfl) (by decide) (.inr ⟨?_, rfl⟩)
      (by decide) (by decide) (by decide))
  · intro v h; exact absurd (List.cons.inj (List.cons.inj h).2).1 (by decide)
  · intro v h; exact absurd (List.cons.inj h).1 (by decide)
  · exact .char (by decide) (by decide) (.char (by decide) (by decide) (.paren (a := c!"1") (.char (by decide) (by decide) .nil)
      (.char (by decide) (by decide) (.char (by decide) (by decide) (.char (by decide) (by decide) (.char (by decide) (by decide)
        (.quoted (q := c!"a)\\\"") (.char (by decide) (by decide) (.char (by decide) (by decide) (.escape (by decide) .nil))) .nil)))))))
  · intro x y h
    have := (Satyr.CStr.strstrHas_iff (c!"x=(1), s=\"a)\\\"\"" ++ c!")") c!"(truncated)").2 ⟨x, y, by rw [h, List.append_assoc]⟩
    exact absurd this (by decide)
  · intro h
    have := (sourceName_none _).2 h
    exact absurd this (by decide)

/-! ## The characters of names -/

theorem mem_alnum (c : Char) : c ∈ alnum ↔ c.isAlphanum = true := by
  constructor
  · have : ∀ c ∈ alnum, c.isAlphanum = true := by decide +kernel
    exact this c
  · intro h
    have hb : c.toNat < 128 := by
      simp only [Char.isAlphanum, Char.isAlpha, Char.isUpper, Char.isLower, Char.isDigit, Bool.or_eq_true, decide_eq_true_eq, Bool.and_eq_true,
        ge_iff_le, UInt32.le_iff_toNat_le] at h
      have : c.toNat = c.val.toNat := rfl
      have h1 : 'Z'.val.toNat = 90 := rfl
      have h2 : 'z'.val.toNat = 122 := rfl
      have h3 : '9'.val.toNat = 57 := rfl
      omega
    have key : ∀ n < 128, (Char.ofNat n).isAlphanum = true → Char.ofNat n ∈ alnum := by decide +kernel
    have := key c.toNat hb
    rw [Char.ofNat_toNat] at this
    exact this h

/-- C71: the characters of names of functions are letters, digits and the given punctuation, those of files letters, digits and
`_/\+.-`. -/
theorem C71_chars (c : Char) :
    (c ∈ nameChars ↔ c.isAlphanum = true ∨ c ∈ c!"@.:=!*+-[]~&/%^|,_") ∧ (c ∈ fileChars ↔ c.isAlphanum = true ∨ c ∈ c!"_/\\+.-") := by
  unfold nameChars fileChars
  rw [List.mem_append, List.mem_append, mem_alnum]
  exact ⟨Iff.rfl, Iff.rfl⟩

/-! ## Frames that are not read, or not as they are -/

/-- C71 is not true of all functions: a name after a type must not begin with `const`. -/
theorem C71_not_construct : parseFrame c!"#0  0x1 in void construct<int> (x=1) at a.c:1\n" = .ok none := by decide +kernel

/-- C71 is not true of all types: a type with more than one word is not read. -/
theorem C71_not_two_words : parseFrame c!"#0  0x1 in unsigned int f<int> (x=1) at a.c:1\n" = .ok none := by decide +kernel

/-- C71 is not true of pointers to constants. -/
theorem C71_not_const_pointer : parseFrame c!"#0  0x1 in char const* get<int> (x=1) at a.c:1\n" = .ok none := by decide +kernel

/-- C71 is not true of functions whose names begin with `vtable`. -/
theorem C71_not_vtable : parseFrame c!"#0  0x1 in vtable_init (x=1) at a.c:1\n" = .ok none := by decide +kernel

/-- C71 is not true of names in which `operator` is the end of a word inside of brackets. -/
theorem C71_not_operator_word : parseFrame c!"#0  0x1 in f<my_operator> (p=1) at a.cc:1\n" = .ok none := by decide +kernel

/-- C71 is not true of conversions: the word `operator` becomes a part of the type. -/
theorem C71_not_conversion : parseFrame c!"#0  0x1 in Foo::operator bool (this=0x1) at a.c:1\n" =
    .ok (some ({ newFrame with number := 0, address := 1, functionName := some c!"bool", functionType := some c!"Foo::operator", sourceFile := some c!"a.c", sourceLine := 1 }, [])) := by
  decide +kernel

/-- C71 is not true of arguments that are characters: brackets between apostrophes are counted. -/
theorem C71_not_char_argument : parseFrame c!"#0  f (c=40 '(') at a.c:1\n" = .ok none := by decide +kernel

/-- C71 is not true of all files: a name ends at the first space, and the line is lost. -/
theorem C71_not_file_space : parseFrame c!"#0  0x1 in f (x=1) at a b.c:1\n" =
    .ok (some ({ newFrame with number := 0, address := 1, functionName := some c!"f", sourceFile := some c!"a" }, [])) := by
  decide +kernel

end Satyr.Gdb
