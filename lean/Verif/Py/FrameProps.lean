import Verif.Py.FrameModel
import Verif.Py.ObjectsProps
import Verif.Gdb.FrameSafe
import Verif.Gdb.FrameRead
import Verif.Normalize.Lemmas
import Verif.CStr.Num
/-!
# C133: GDB and core frames in Python
-/
namespace Satyr.Py.FrameObjects
open Satyr.CStr Satyr.Normalize
open Satyr.Py.Base (Exc)
open Satyr.Py.Objects (textArg textArg_ok cut_unique)

/-! ## Specification -/

/-- Functions that are shown alike: the same ones, and all whose names begin with two question marks. -/
def SameFunction (a b : Option Str) : Prop :=
  a = b ∨ ∃ m n, a = some m ∧ b = some n ∧ c!"??" <+: m ∧ c!"??" <+: n

/-- A frame whose text can be divided: the name has neither of the characters that begin the next parts. -/
structure GdbPlain (f : GdbFrame) : Prop where
  name : ∀ n, f.functionName = some n → '@' ∉ n ∧ '(' ∉ n

/-- A core frame whose text can be divided. -/
structure CorePlain (f : CoreFrame) : Prop where
  name : ∀ n, f.functionName = some n → ' ' ∉ n ∧ '+' ∉ n ∧ '[' ∉ n ∧ n ≠ c!"fingerprint:"
  build : ∀ b, f.buildId = some b → ' ' ∉ b ∧ '+' ∉ b ∧ '[' ∉ b
  file : ∀ p, f.fileName = some p → ']' ∉ p ∧ ¬ c!"0x" <+: p
  print : ∀ p, f.fingerprint = some p → ' ' ∉ p

/-- Core frames that agree in all that is shown; an offset needs a build id, and whether a fingerprint is hashed needs a fingerprint. -/
structure CoreAgree (f g : CoreFrame) : Prop where
  address : f.address = g.address
  name : f.functionName = g.functionName
  build : f.buildId = g.buildId
  offset : f.buildId ≠ none → f.buildIdOffset = g.buildIdOffset
  file : f.fileName = g.fileName
  print : f.fingerprint = g.fingerprint
  hashed : f.fingerprint ≠ none → f.fingerprintHashed = g.fingerprintHashed

/-! ## Numbers -/

theorem hexValue_zeros (k : Nat) (ds : Str) : hexValue (List.replicate k '0' ++ ds) = hexValue ds := by
  induction k with
  | zero => rfl
  | succ k ih =>
    rw [← ih, List.replicate_succ]
    unfold hexValue
    rw [List.cons_append, List.reverse_cons, List.map_append, Nat.ofDigits_append]
    simp

theorem hex16_isHex {n : Nat} : ∀ c ∈ Text.hex16 n, IsHex c = true := by
  intro c hc
  unfold Text.hex16 at hc
  rcases List.mem_append.1 hc with hc | hc
  · rw [(List.mem_replicate.1 hc).2]; decide
  · exact (natHex_spec n).1 c hc

theorem hex16_value (n : Nat) : hexValue (Text.hex16 n) = n := by
  unfold Text.hex16
  rw [hexValue_zeros, (natHex_spec n).2.2]

theorem hex16_injective {a b : Nat} (h : Text.hex16 a = Text.hex16 b) : a = b := by
  rw [← hex16_value a, h, hex16_value b]

/-! ## The text of a GDB frame -/

theorem startsWith_prefix (s p : Str) : startsWith s p = true ↔ p <+: s := by
  unfold startsWith; exact List.isPrefixOf_iff_prefix

theorem kindText_inj {a b : Option Str} : kindText a = kindText b ↔ SameFunction a b := by
  have key (n : Str) : kindText (some n) = if c!"??" <+: n then c!"unknown function" else c!"function " ++ n := by
    by_cases h : c!"??" <+: n
    · rw [if_pos h]; unfold kindText; dsimp only; rw [if_pos ((startsWith_prefix _ _).2 h)]
    · rw [if_neg h]; unfold kindText; dsimp only; rw [if_neg (fun e => h ((startsWith_prefix _ _).1 e))]
  cases a with
  | none =>
    cases b with
    | none => exact ⟨fun _ => .inl rfl, fun _ => rfl⟩
    | some n =>
      constructor
      · intro h
        rw [key] at h
        split at h <;> simp [kindText] at h
      · rintro (h | ⟨m, _, h, -⟩) <;> cases h
  | some m =>
    cases b with
    | none =>
      constructor
      · intro h
        rw [key] at h
        split at h <;> simp [kindText] at h
      · rintro (h | ⟨_, n, -, h, -⟩) <;> cases h
    | some n =>
      rw [key, key]
      constructor
      · intro h
        by_cases h1 : c!"??" <+: m <;> by_cases h2 : c!"??" <+: n
        · exact .inr ⟨m, n, rfl, rfl, h1, h2⟩
        · rw [if_pos h1, if_neg h2] at h; simp at h
        · rw [if_neg h1, if_pos h2] at h; simp at h
        · rw [if_neg h1, if_neg h2] at h
          exact .inl (congrArg some (List.append_cancel_left h))
      · rintro (h | ⟨_, _, h, h', h1, h2⟩)
        · cases h; rfl
        · cases h; cases h'; rw [if_pos h1, if_pos h2]

theorem kindText_plain {o : Option Str} (h : ∀ n, o = some n → '@' ∉ n ∧ '(' ∉ n) : '@' ∉ kindText o ∧ '(' ∉ kindText o := by
  cases o with
  | none => decide
  | some n =>
    obtain ⟨h1, h2⟩ := h n rfl
    unfold kindText
    dsimp only
    split
    · decide
    · rw [List.mem_append, List.mem_append, not_or, not_or]
      exact ⟨⟨by decide, h1⟩, by decide, h2⟩

theorem addressText_unknown : addressText (2 ^ 64 - 1) = [] := by
  unfold addressText; rw [if_neg (fun h => h rfl)]

theorem addressText_known {a : Nat} (h : a ≠ 2 ^ 64 - 1) : addressText a = c!" @ 0x" ++ Text.hex16 a := by
  unfold addressText; rw [if_pos h]

/-- The text after the function, divided into what precedes the first mark and the rest. -/
def gap (a : Nat) (l : Option Str) : Str := if a = 2 ^ 64 - 1 ∧ l = none then [] else c!" "

def marked (a : Nat) (l : Option Str) : Str := (addressText a ++ libraryText l).drop 1

theorem gap_marked (a : Nat) (l : Option Str) : addressText a ++ libraryText l = gap a l ++ marked a l := by
  unfold gap marked
  by_cases h : a = 2 ^ 64 - 1
  · subst h
    rw [addressText_unknown]
    cases l with
    | none => rw [if_pos ⟨rfl, rfl⟩]; rfl
    | some l => rw [if_neg (fun h => by cases h.2)]; rfl
  · rw [addressText_known h, if_neg (fun e => h e.1)]; rfl

theorem marked_known {a : Nat} (h : a ≠ 2 ^ 64 - 1) (l : Option Str) : marked a l = c!"@ 0x" ++ (Text.hex16 a ++ libraryText l) := by
  unfold marked
  rw [addressText_known h]; rfl

theorem marked_unknown (l : Option Str) : marked (2 ^ 64 - 1) l = (libraryText l).drop 1 := by
  unfold marked
  rw [addressText_unknown]; rfl

theorem marked_head (a : Nat) (l : Option Str) : ∀ c t, marked a l = c :: t → c = '@' ∨ c = '(' := by
  intro c t h
  by_cases ha : a = 2 ^ 64 - 1
  · rw [ha, marked_unknown] at h
    cases l with
    | none => cases h
    | some l => cases h; exact .inr rfl
  · rw [marked_known ha] at h
    cases h; exact .inl rfl

theorem libraryText_inj {k l : Option Str} (h : libraryText k = libraryText l) : k = l := by
  cases k <;> cases l <;> simp [libraryText] at h ⊢
  exact h

theorem marked_inj {a b : Nat} {k l : Option Str} (h : marked a k = marked b l) : a = b ∧ k = l := by
  have tail (n : Nat) (o : Option Str) : ∀ c t, libraryText o = c :: t → ¬ IsHex c = true := by
    intro c t e
    cases o with
    | none => cases e
    | some o => simp [libraryText] at e; rw [← e.1]; decide
  by_cases ha : a = 2 ^ 64 - 1 <;> by_cases hb : b = 2 ^ 64 - 1
  · refine ⟨ha.trans hb.symm, ?_⟩
    rw [ha, hb, marked_unknown, marked_unknown] at h
    cases k <;> cases l <;> simp [libraryText] at h ⊢
    exact h
  · exfalso
    rw [ha, marked_unknown, marked_known hb] at h
    cases k <;> simp [libraryText] at h
  · exfalso
    rw [hb, marked_unknown, marked_known ha] at h
    cases l <;> simp [libraryText] at h
  · rw [marked_known ha, marked_known hb] at h
    obtain ⟨h1, h2⟩ := cut_unique (fun c => ¬ IsHex c = true) (fun c hc h => h (hex16_isHex c hc))
      (fun c hc h => h (hex16_isHex c hc)) (tail a k) (tail b l) (List.append_cancel_left h)
    exact ⟨hex16_injective h1, libraryText_inj h2⟩

theorem parts_inj {f g : GdbFrame} (hf : GdbPlain f) (hg : GdbPlain g)
    (h : kindText f.functionName ++ addressText f.address ++ libraryText f.libraryName =
      kindText g.functionName ++ addressText g.address ++ libraryText g.libraryName) :
    SameFunction f.functionName g.functionName ∧ f.address = g.address ∧ f.libraryName = g.libraryName := by
  rw [List.append_assoc, List.append_assoc, gap_marked, gap_marked, ← List.append_assoc, ← List.append_assoc] at h
  have plain {o : GdbFrame} (ho : GdbPlain o) :
      ∀ c ∈ kindText o.functionName ++ gap o.address o.libraryName, ¬ (c = '@' ∨ c = '(') := by
    obtain ⟨h1, h2⟩ := kindText_plain ho.name
    have hgap : '@' ∉ gap o.address o.libraryName ∧ '(' ∉ gap o.address o.libraryName := by
      unfold gap; split <;> decide
    rintro c hc (rfl | rfl)
    · rcases List.mem_append.1 hc with hc | hc
      · exact h1 hc
      · exact hgap.1 hc
    · rcases List.mem_append.1 hc with hc | hc
      · exact h2 hc
      · exact hgap.2 hc
  obtain ⟨h1, h2⟩ := cut_unique (fun c => c = '@' ∨ c = '(') (plain hf) (plain hg) (marked_head _ _) (marked_head _ _) h
  obtain ⟨e1, e2⟩ := marked_inj h2
  refine ⟨kindText_inj.1 ?_, e1, e2⟩
  rw [e1, e2] at h1
  exact List.append_cancel_right h1

theorem number_inj {m n : Nat} {x y : Str} (h : c!"Frame #" ++ natDec m ++ c!": " ++ x = c!"Frame #" ++ natDec n ++ c!": " ++ y) :
    m = n ∧ x = y := by
  simp only [List.append_assoc] at h
  have e := List.append_cancel_left h
  have dec (k : Nat) : ∀ c ∈ natDec k, ¬ ¬ IsDec c = true := fun c hc h => h ((natDec_spec k).1 c hc)
  have head (z : Str) : ∀ c t, c!": " ++ z = c :: t → ¬ IsDec c = true := by
    intro c t e
    simp at e
    rw [← e.1]; decide
  obtain ⟨h1, h2⟩ := cut_unique (fun c => ¬ IsDec c = true) (dec m) (dec n) (head x) (head y) e
  exact ⟨natDec_injective h1, List.append_cancel_left h2⟩

/-- C133: the text of a GDB frame tells its number, whatever its function and library are. -/
theorem C133_number {f g : GdbFrame} (h : gdbStr f = gdbStr g) : f.number = g.number := (number_inj h).1

example : gdbStr { Gdb.newFrame with number := 12 } = c!"Frame #12: signal handler" := by decide +kernel

/-- C133: two GDB frames are shown alike if and only if number, address and library are the same and the functions are shown alike.
Names with `@` or `(` are excluded. -/
theorem C133_text_partial {f g : GdbFrame} (hf : GdbPlain f) (hg : GdbPlain g) :
    gdbStr f = gdbStr g ↔
      f.number = g.number ∧ SameFunction f.functionName g.functionName ∧ f.address = g.address ∧ f.libraryName = g.libraryName := by
  constructor
  · intro h
    obtain ⟨h1, h2⟩ := number_inj h
    exact ⟨h1, parts_inj hf hg h2⟩
  · rintro ⟨h1, h2, h3, h4⟩
    unfold gdbStr
    rw [h1, kindText_inj.2 h2, h3, h4]

example : GdbPlain { Gdb.newFrame with number := 3, address := 255, functionName := some c!"main", libraryName := some c!"libc.so (2)" } ∧
    gdbStr { Gdb.newFrame with number := 3, address := 255, functionName := some c!"main", libraryName := some c!"libc.so (2)" } =
      c!"Frame #3: function main @ 0x00000000000000ff (libc.so (2))" :=
  ⟨⟨by rintro n ⟨⟩; decide⟩, by decide +kernel⟩

/-- C133 is not true of all names: a name can look like an address or a library. -/
theorem C133_not_text : ∃ f g : GdbFrame, gdbStr f = gdbStr g ∧ f.functionName ≠ g.functionName ∧ f.libraryName ≠ g.libraryName :=
  ⟨{ Gdb.newFrame with functionName := some c!"f (x)" }, { Gdb.newFrame with functionName := some c!"f", libraryName := some c!"x" },
    by decide +kernel, by decide, by decide⟩

/-- C133 is not true of frames without a name: they are all shown as signal handlers, also if they are none. -/
theorem C133_not_signal : gdbNew [] = .ok (.ok Gdb.newFrame) ∧ Gdb.newFrame.signalHandlerCalled = false ∧
    c!"signal handler" <:+: gdbStr Gdb.newFrame :=
  ⟨rfl, rfl, ⟨c!"Frame #0: ", [], by decide +kernel⟩⟩

/-! ## Making GDB frames -/

theorem gdbNew_text {s : Str} (h : '\x00' ∉ s) : gdbNew [.str s] =
    Gdb.parseFrame s >>= fun r => .ok (match r with | none => .error .value | some r => .ok r.1) := by
  have e := textArg_ok.2 ⟨rfl, h⟩
  unfold gdbNew
  dsimp only
  rw [e]
  rfl

/-- C133: whatever is given, a frame that is made is the empty one or has what stands in the text, in the places where GDB prints it. -/
theorem C133_made {args : List Value} {f : GdbFrame} (h : gdbNew args = .ok (.ok f)) :
    (args = [] ∧ f = Gdb.newFrame) ∨ ∃ s rest, args = [.str s] ∧ '\x00' ∉ s ∧ Gdb.HeaderReads s f rest := by
  match args, h with
  | [], h => left; cases h; exact ⟨rfl, rfl⟩
  | [v], h =>
    right
    cases e : textArg v with
    | error x => simp [gdbNew, e] at h
    | ok s =>
      obtain ⟨rfl, hs⟩ := textArg_ok.1 e
      rw [gdbNew_text hs] at h
      cases hp : Gdb.parseFrame s with
      | ok r =>
        rw [hp, Out.bind_ok] at h
        cases r with
        | none => simp at h
        | some r =>
          obtain ⟨f', rest⟩ := r
          simp at h
          subst h
          obtain ⟨u, hu⟩ := Gdb.C71_frame_sound s rest f' hp
          exact ⟨s, u, rfl, hs, hu⟩
      | abort => rw [hp] at h; cases h
      | ub => rw [hp] at h; cases h
  | _ :: _ :: _, h => simp [gdbNew] at h

/-- C133: a frame as GDB prints it is read, also if more text follows in its last line. -/
theorem C133_read_partial {f : GdbFrame} {s v : Str} (h : Gdb.FrameText f s v) (hb : Gdb.NoBreak (s ++ v)) (h0 : '\x00' ∉ s ++ v) :
    gdbNew [.str (s ++ v)] = .ok (.ok f) := by
  rw [gdbNew_text h0, Gdb.C71_last_frame_read_partial h hb]
  rfl

example : gdbNew [.str c!"#1  0x10 in main (argc=1) at a.c:7"] =
    .ok (.ok { Gdb.newFrame with number := 1, address := 16, functionName := some c!"main", sourceFile := some c!"a.c", sourceLine := 7 }) := by
  decide +kernel

/-- C133: a text that ends with a line feed gives a frame or a `ValueError`, and other values give an exception. -/
theorem C133_total_partial (v : Value) (h : ∀ s, v = .str s → Gdb.EndsNl s) :
    (∃ f, gdbNew [v] = .ok (.ok f)) ∨ gdbNew [v] = .ok (.error .value) ∨ ((∀ s, v ≠ .str s) ∧ gdbNew [v] = .ok (.error .type)) := by
  cases v with
  | str s =>
    by_cases h0 : '\x00' ∈ s
    · right; left; simp [gdbNew, textArg, h0]
    · rw [gdbNew_text h0]
      obtain ⟨r, hr⟩ := Gdb.C56_gdb_frame_partial s (h s rfl)
      rw [hr, Out.bind_ok]
      cases r with
      | none => exact .inr (.inl rfl)
      | some r => exact .inl ⟨r.1, rfl⟩
  | badStr => right; left; rfl
  | none => right; right; exact ⟨by simp, rfl⟩
  | bool b => right; right; exact ⟨by simp, rfl⟩
  | int z => right; right; exact ⟨by simp, rfl⟩
  | other => right; right; exact ⟨by simp, rfl⟩

example : gdbNew [.str c!"nothing\n"] = .ok (.error .value) ∧ gdbNew [.int 3] = .ok (.error .type) := by decide +kernel

/-- C133 is not true of texts without a line feed at the end: the parser leaves the text. -/
theorem C133_not_total : ∃ s : Str, '\x00' ∉ s ∧ gdbNew [.str s] = .ub := ⟨c!"#0  f (", by decide, by decide +kernel⟩

/-! ## Which function is called -/

/-- C133: `calls_func_in_file` tells whether the frame has the given name and a source file in which the given text occurs. -/
theorem C133_in_file (f : GdbFrame) (name file : Str) (h1 : '\x00' ∉ name) (h2 : '\x00' ∉ file) :
    (callsFuncInFile f [.str name, .str file] = .ok 1 ↔ f.functionName = some name ∧ ∃ p, f.sourceFile = some p ∧ file <:+: p) ∧
    (callsFuncInFile f [.str name, .str file] = .ok 1 ∨ callsFuncInFile f [.str name, .str file] = .ok 0) := by
  have e : callsFuncInFile f [.str name, .str file] = .ok (ofBool (callMatch f.functionName f.sourceFile name [file])) := by
    simp [callsFuncInFile, textArg, h1, h2]
  have i := callMatch_iff f.functionName f.sourceFile name [file]
  simp only [List.mem_singleton, exists_eq_left] at i
  rw [e, ← i]
  cases callMatch f.functionName f.sourceFile name [file] <;> simp [ofBool]

example : callsFuncInFile { Gdb.newFrame with functionName := some c!"f", sourceFile := some c!"src/a.c" } [.str c!"f", .str c!"a.c"] = .ok 1 := by
  decide +kernel

/-- C133: the methods take one and two texts without NUL, and nothing else. -/
theorem C133_arguments (f : GdbFrame) (args : List Value) :
    ((∃ z, callsFunc f args = .ok z) ↔ ∃ n, args = [.str n] ∧ '\x00' ∉ n) ∧
    ((∃ z, callsFuncInFile f args = .ok z) ↔ ∃ n p, args = [.str n, .str p] ∧ '\x00' ∉ n ∧ '\x00' ∉ p) := by
  constructor
  · constructor
    · rintro ⟨z, h⟩
      match args, h with
      | [v], h =>
        cases e : textArg v with
        | error x => simp [callsFunc, e] at h
        | ok n => obtain ⟨rfl, hn⟩ := textArg_ok.1 e; exact ⟨n, rfl, hn⟩
      | [], h => simp [callsFunc] at h
      | _ :: _ :: _, h => simp [callsFunc] at h
    · rintro ⟨n, rfl, hn⟩
      exact ⟨ofBool (callMatch f.functionName f.sourceFile n []), by simp only [callsFunc, textArg_ok.2 ⟨rfl, hn⟩]⟩
  · constructor
    · rintro ⟨z, h⟩
      match args, h with
      | [v, u], h =>
        cases e : textArg v with
        | error x => simp [callsFuncInFile, e] at h
        | ok n =>
          cases e' : textArg u with
          | error x => simp [callsFuncInFile, e, e'] at h
          | ok p =>
            obtain ⟨rfl, hn⟩ := textArg_ok.1 e
            obtain ⟨rfl, hp⟩ := textArg_ok.1 e'
            exact ⟨n, p, rfl, hn, hp⟩
      | [], h => simp [callsFuncInFile] at h
      | [_], h => simp [callsFuncInFile] at h
      | _ :: _ :: _ :: _, h => simp [callsFuncInFile] at h
    · rintro ⟨n, p, rfl, hn, hp⟩
      exact ⟨ofBool (callMatch f.functionName f.sourceFile n [p]), by simp only [callsFuncInFile, textArg_ok.2 ⟨rfl, hn⟩, textArg_ok.2 ⟨rfl, hp⟩]⟩

/-- C133 is false for `calls_func`: it says no for every frame and name, also for the name of the frame. -/
theorem C133_not_calls_func (f : GdbFrame) (n : Str) (h : '\x00' ∉ n) : callsFunc f [.str n] = .ok 0 := by
  have e : callMatch f.functionName f.sourceFile n [] = false := by
    rw [Bool.eq_false_iff]
    intro e
    obtain ⟨-, p, -, q, hq, -⟩ := (callMatch_iff _ _ _ _).1 e
    cases hq
  simp [callsFunc, textArg, h, e, ofBool]

example : callsFunc { Gdb.newFrame with functionName := some c!"main", sourceFile := some c!"a.c" } [.str c!"main"] = .ok 0 := by
  decide +kernel

/-- C133 is false if a file is meant: another file whose name has the given one inside is taken too. -/
theorem C133_not_same_file : ∃ f : GdbFrame, f.sourceFile ≠ some c!"a.c" ∧ callsFuncInFile f [.str c!"f", .str c!"a.c"] = .ok 1 :=
  ⟨{ Gdb.newFrame with functionName := some c!"f", sourceFile := some c!"schema.cpp" }, by decide, by decide +kernel⟩

/-! ## The text of a core frame -/

def Sep (c : Char) : Prop := c = ' ' ∨ c = '+' ∨ c = '['

/-- A text that does not begin like a name: what precedes the first separator is the word before a fingerprint, or no space follows. -/
structure Cut (r a x : Str) : Prop where
  eq : r = a ++ x
  free : ∀ c ∈ a, ¬ Sep c
  head : ∀ c t, x = c :: t → Sep c

theorem free_of {a : Str} (h : ' ' ∉ a ∧ '+' ∉ a ∧ '[' ∉ a) : ∀ c ∈ a, ¬ Sep c := by
  rintro c hc (rfl | rfl | rfl)
  · exact h.1 hc
  · exact h.2.1 hc
  · exact h.2.2 hc

theorem Cut.unique {r a b x y : Str} (h : Cut r a x) (h' : Cut r b y) : a = b ∧ x = y :=
  cut_unique Sep h.free h'.free h.head h'.head (h.eq.symm.trans h'.eq)

theorem cut_name {n : Str} (h : ' ' ∉ n ∧ '+' ∉ n ∧ '[' ∉ n) (r : Str) : Cut (coreName (some n) ++ r) n (' ' :: r) :=
  ⟨by simp [coreName], free_of h, by rintro c t ⟨⟩; exact .inl rfl⟩

theorem cut_build {b : Str} (h : ' ' ∉ b ∧ '+' ∉ b ∧ '[' ∉ b) (n : Nat) (r : Str) :
    Cut (coreBuild n (some b) ++ r) b ('+' :: '0' :: 'x' :: (natHex n ++ ' ' :: r)) :=
  ⟨by simp [coreBuild], free_of h, by rintro c t ⟨⟩; exact .inr (.inl rfl)⟩

theorem cut_print (d : Bool) (o : Option Str) : ∃ a x, Cut (corePrint d o) a x ∧
    (x = [] ∨ (a = c!"fingerprint:" ∧ ∃ t, x = ' ' :: t)) := by
  cases o with
  | none => exact ⟨[], [], ⟨rfl, by simp, by simp⟩, .inl rfl⟩
  | some p =>
    refine ⟨c!"fingerprint:", _, ⟨rfl, free_of (by decide), ?_⟩, .inr ⟨rfl, _, rfl⟩⟩
    rintro c t ⟨⟩; exact .inl rfl

theorem cut_file (o : Option Str) (d : Bool) (p : Option Str) : ∃ a x, Cut (coreFile o ++ corePrint d p) a x ∧
    (x = [] ∨ (a = [] ∧ ∃ t, x = '[' :: t) ∨ (a = c!"fingerprint:" ∧ ∃ t, x = ' ' :: t)) := by
  cases o with
  | none =>
    obtain ⟨a, x, h, h'⟩ := cut_print d p
    exact ⟨a, x, h, h'.imp_right .inr⟩
  | some s =>
    refine ⟨[], _, ⟨rfl, by simp, ?_⟩, .inr (.inl ⟨rfl, _, rfl⟩)⟩
    rintro c t ⟨⟩; exact .inr (.inr rfl)

theorem cut_rest {f : CoreFrame} (hf : CorePlain f) : ∃ a x,
    Cut (coreBuild f.buildIdOffset f.buildId ++ (coreFile f.fileName ++ corePrint f.fingerprintHashed f.fingerprint)) a x ∧
    ∀ t, x = ' ' :: t → a = c!"fingerprint:" := by
  cases e : f.buildId with
  | none =>
    obtain ⟨a, x, h, h'⟩ := cut_file f.fileName f.fingerprintHashed f.fingerprint
    refine ⟨a, x, h, ?_⟩
    rintro t rfl
    rcases h' with h' | ⟨-, u, h'⟩ | ⟨h', -⟩
    · cases h'
    · cases h'
    · exact h'
  | some b =>
    refine ⟨_, _, cut_build (hf.build b e) _ _, ?_⟩
    rintro t ⟨⟩

theorem print_inj {d e : Bool} {p q : Option Str} (hp : ∀ s, p = some s → ' ' ∉ s) (hq : ∀ s, q = some s → ' ' ∉ s)
    (h : corePrint d p = corePrint e q) : p = q ∧ (p ≠ none → d = e) := by
  cases p with
  | none =>
    cases q with
    | none => exact ⟨rfl, fun h => absurd rfl h⟩
    | some q => simp [corePrint] at h
  | some p =>
    cases q with
    | none => simp [corePrint] at h
    | some q =>
      simp only [corePrint, List.append_assoc] at h
      obtain ⟨rfl, h2⟩ := cut_unique (fun c => c = ' ') (fun c hc e => hp p rfl (e ▸ hc)) (fun c hc e => hq q rfl (e ▸ hc))
        (by rintro c t ⟨⟩; rfl) (by rintro c t ⟨⟩; rfl) (List.append_cancel_left h)
      refine ⟨rfl, fun _ => ?_⟩
      cases d <;> cases e <;> simp at h2 ⊢

theorem file_inj {o o' : Option Str} {d e : Bool} {p q : Option Str} (ho : ∀ s, o = some s → ']' ∉ s) (ho' : ∀ s, o' = some s → ']' ∉ s)
    (h : coreFile o ++ corePrint d p = coreFile o' ++ corePrint e q) : o = o' ∧ corePrint d p = corePrint e q := by
  cases o with
  | none =>
    cases o' with
    | none => exact ⟨rfl, h⟩
    | some s => cases p <;> simp [coreFile, corePrint] at h
  | some s =>
    cases o' with
    | none => cases q <;> simp [coreFile, corePrint] at h
    | some s' =>
      simp only [coreFile, List.append_assoc] at h
      obtain ⟨rfl, h2⟩ := cut_unique (fun c => c = ']') (fun c hc e => ho s rfl (e ▸ hc)) (fun c hc e => ho' s' rfl (e ▸ hc))
        (by rintro c t ⟨⟩; rfl) (by rintro c t ⟨⟩; rfl) (List.append_cancel_left h)
      exact ⟨rfl, List.append_cancel_left h2⟩

theorem build_inj {m n : Nat} {o o' : Option Str} {k k' : Option Str} {d e : Bool} {p q : Option Str}
    (ho : ∀ b, o = some b → ' ' ∉ b ∧ '+' ∉ b ∧ '[' ∉ b) (ho' : ∀ b, o' = some b → ' ' ∉ b ∧ '+' ∉ b ∧ '[' ∉ b)
    (h : coreBuild m o ++ (coreFile k ++ corePrint d p) = coreBuild n o' ++ (coreFile k' ++ corePrint e q)) :
    o = o' ∧ (o ≠ none → m = n) ∧ coreFile k ++ corePrint d p = coreFile k' ++ corePrint e q := by
  cases o with
  | none =>
    cases o' with
    | none => exact ⟨rfl, fun h => absurd rfl h, h⟩
    | some b =>
      exfalso
      obtain ⟨a, x, c, hx⟩ := cut_file k d p
      have c' := cut_build (ho' b rfl) n (coreFile k' ++ corePrint e q)
      rw [← h] at c'
      have := (c.unique c').2
      rcases hx with rfl | ⟨-, t, rfl⟩ | ⟨-, t, rfl⟩ <;> cases this
  | some b =>
    have c := cut_build (ho b rfl) m (coreFile k ++ corePrint d p)
    cases o' with
    | none =>
      exfalso
      obtain ⟨a, x, c', hx⟩ := cut_file k' e q
      rw [h] at c
      have := (c'.unique c).2
      rcases hx with rfl | ⟨-, t, rfl⟩ | ⟨-, t, rfl⟩ <;> cases this
    | some b' =>
      have c' := cut_build (ho' b' rfl) n (coreFile k' ++ corePrint e q)
      rw [h] at c
      obtain ⟨rfl, h2⟩ := c.unique c'
      simp only [List.cons.injEq, true_and] at h2
      have hex (i : Nat) : ∀ c ∈ natHex i, ¬ c = ' ' := by
        rintro c hc rfl
        have := (natHex_spec i).1 _ hc
        revert this; decide
      obtain ⟨h3, h4⟩ := cut_unique (fun c => c = ' ') (hex m) (hex n) (by rintro c t ⟨⟩; rfl) (by rintro c t ⟨⟩; rfl) h2
      exact ⟨rfl, fun _ => natHex_injective h3, by simpa using h4⟩

theorem name_inj {f g : CoreFrame} (hf : CorePlain f) (hg : CorePlain g) {r r' : Str}
    (hr : ∃ a x, Cut r a x ∧ ∀ t, x = ' ' :: t → a = c!"fingerprint:")
    (hr' : ∃ a x, Cut r' a x ∧ ∀ t, x = ' ' :: t → a = c!"fingerprint:")
    (h : coreName f.functionName ++ r = coreName g.functionName ++ r') : f.functionName = g.functionName ∧ r = r' := by
  have hf := hf.name
  have hg := hg.name
  generalize f.functionName = m at *
  generalize g.functionName = n at *
  cases m with
  | none =>
    cases n with
    | none => exact ⟨rfl, h⟩
    | some n =>
      exfalso
      obtain ⟨a, x, c, hx⟩ := hr
      obtain ⟨h1, h2, h3, h4⟩ := hg n rfl
      have c' := cut_name ⟨h1, h2, h3⟩ r'
      rw [← h] at c'
      obtain ⟨e1, e2⟩ := c.unique c'
      exact h4 (e1.symm.trans (hx _ e2))
  | some m =>
    obtain ⟨h1, h2, h3, h4⟩ := hf m rfl
    have c := cut_name ⟨h1, h2, h3⟩ r
    rw [h] at c
    cases n with
    | none =>
      exfalso
      obtain ⟨a, x, c', hx⟩ := hr'
      obtain ⟨e1, e2⟩ := c'.unique c
      exact h4 (e1.symm.trans (hx _ e2))
    | some n =>
      obtain ⟨i1, i2, i3, -⟩ := hg n rfl
      obtain ⟨rfl, h2⟩ := c.unique (cut_name ⟨i1, i2, i3⟩ r')
      simp only [List.cons.injEq, true_and] at h2
      exact ⟨rfl, h2⟩

/-- The text after the address. -/
def coreTail (f : CoreFrame) : Str :=
  coreName f.functionName ++ (coreBuild f.buildIdOffset f.buildId ++ (coreFile f.fileName ++ corePrint f.fingerprintHashed f.fingerprint))

theorem coreTail_head {f : CoreFrame} (hf : CorePlain f) : ¬ c!"[0x" <+: coreTail f := by
  rintro ⟨t, h⟩
  have c0 : Cut (coreTail f) [] ('[' :: '0' :: 'x' :: t) := ⟨h.symm, by simp, by rintro c t ⟨⟩; exact .inr (.inr rfl)⟩
  unfold coreTail at c0
  cases e1 : f.functionName with
  | some n =>
    obtain ⟨h1, h2, h3, -⟩ := hf.name n e1
    rw [e1] at c0
    have := ((cut_name ⟨h1, h2, h3⟩ _).unique c0).2
    cases this
  | none =>
    rw [e1] at c0
    cases e2 : f.buildId with
    | some b =>
      rw [e2] at c0
      have := ((cut_build (hf.build b e2) _ _).unique c0).2
      cases this
    | none =>
      rw [e2] at c0
      cases e3 : f.fileName with
      | none =>
        rw [e3] at c0
        obtain ⟨a, x, c, hx⟩ := cut_print f.fingerprintHashed f.fingerprint
        have := (c.unique c0).2
        rcases hx with rfl | ⟨-, t, rfl⟩ <;> cases this
      | some p =>
        obtain ⟨hp1, hp2⟩ := hf.file p e3
        rw [e3] at c0
        have e := c0.eq
        simp only [coreName, coreBuild, coreFile, List.nil_append, List.append_assoc, List.cons_append, List.cons.injEq, true_and] at e
        match p, hp1, hp2, e with
        | [], _, _, e => simp at e
        | [_], _, _, e => simp at e
        | a :: b :: p, _, hp2, e =>
          simp only [List.cons_append, List.cons.injEq] at e
          obtain ⟨rfl, rfl, -⟩ := e
          exact hp2 ⟨p, rfl⟩

theorem address_inj {a b : Nat} {r r' : Str} (hr : ¬ c!"[0x" <+: r) (hr' : ¬ c!"[0x" <+: r')
    (h : coreAddress a ++ r = coreAddress b ++ r') : a = b ∧ r = r' := by
  unfold coreAddress at h
  by_cases ha : a = 0 <;> by_cases hb : b = 0
  · rw [if_neg (by simpa using ha), if_neg (by simpa using hb)] at h
    exact ⟨ha.trans hb.symm, h⟩
  · rw [if_neg (by simpa using ha), if_pos hb] at h
    exact absurd ⟨Text.hex16 b ++ (c!"] " ++ r'), by simpa using h.symm⟩ hr
  · rw [if_pos ha, if_neg (by simpa using hb)] at h
    exact absurd ⟨Text.hex16 a ++ (c!"] " ++ r), by simpa using h⟩ hr'
  · rw [if_pos ha, if_pos hb] at h
    simp only [List.append_assoc] at h
    have hex (i : Nat) : ∀ c ∈ Text.hex16 i, ¬ c = ']' := by
      rintro c hc rfl
      have := hex16_isHex _ hc
      revert this; decide
    obtain ⟨h1, h2⟩ := cut_unique (fun c => c = ']') (hex a) (hex b) (by rintro c t ⟨⟩; rfl) (by rintro c t ⟨⟩; rfl)
      (List.append_cancel_left h)
    exact ⟨hex16_injective h1, List.append_cancel_left h2⟩

/-- C133: two core frames are shown alike if and only if they agree in all that is shown. Names and build ids with a space, `+` or `[`
and some other texts that look like another part are excluded. -/
theorem C133_core_text_partial {f g : CoreFrame} (hf : CorePlain f) (hg : CorePlain g) : coreStr f = coreStr g ↔ CoreAgree f g := by
  constructor
  · intro h
    obtain ⟨h1, h2⟩ := address_inj (coreTail_head hf) (coreTail_head hg) h
    obtain ⟨h3, h4⟩ := name_inj hf hg (cut_rest hf) (cut_rest hg) h2
    obtain ⟨h5, h6, h7⟩ := build_inj hf.build hg.build h4
    obtain ⟨h8, h9⟩ := file_inj (fun s e => (hf.file s e).1) (fun s e => (hg.file s e).1) h7
    obtain ⟨h10, h11⟩ := print_inj hf.print hg.print h9
    exact ⟨h1, h3, h5, h6, h8, h10, h11⟩
  · rintro ⟨h1, h2, h3, h4, h5, h6, h7⟩
    unfold coreStr
    have e1 : coreBuild f.buildIdOffset f.buildId = coreBuild g.buildIdOffset g.buildId := by
      rw [← h3]
      cases e : f.buildId with
      | none => rfl
      | some b => rw [h4 (by simp [e])]
    have e2 : corePrint f.fingerprintHashed f.fingerprint = corePrint g.fingerprintHashed g.fingerprint := by
      rw [← h6]
      cases e : f.fingerprint with
      | none => rfl
      | some b => rw [h7 (by simp [e])]
    rw [h1, h2, e1, h5, e2]

/-- A core frame with all parts. -/
def sample : CoreFrame :=
  { address := 0x4005, functionName := some c!"std::f", buildId := some c!"ab12", buildIdOffset := 0x15, fileName := some c!"/usr/bin/a b",
    fingerprint := some c!"f00", fingerprintHashed := false }

example : CorePlain sample ∧ coreStr sample =
    c!"[0x0000000000004005] std::f ab12+0x15 [/usr/bin/a b] fingerprint: f00 (not hashed)" :=
  ⟨⟨by rintro n ⟨⟩; decide, by rintro n ⟨⟩; decide, by rintro n ⟨⟩; decide, by rintro n ⟨⟩; decide⟩, by decide +kernel⟩

/-- C133 is not true of all names: a name can look like a name and a file. -/
theorem C133_not_core_text : ∃ f g : CoreFrame, coreStr f = coreStr g ∧ f.functionName ≠ g.functionName ∧ f.fileName ≠ g.fileName :=
  ⟨{ functionName := some c!"f [a]" }, { functionName := some c!"f", fileName := some c!"a" }, by decide +kernel, by decide, by decide⟩

/-- C133 is false for unknown addresses of core frames: they are shown as the largest address, and the address 0 is not shown. -/
theorem C133_not_core_unknown (args : List Value) : coreStr (coreNew args) = c!"[0xffffffffffffffff] " ∧
    coreStr { coreNew args with address := 0 } = [] := by
  unfold coreNew
  constructor <;> decide +kernel

end Satyr.Py.FrameObjects
