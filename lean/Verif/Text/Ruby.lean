import Verif.Text.RubyModel
import Mathlib.Data.List.Induction
/-!
# C53: Ruby backtraces
-/
namespace Satyr.Text.Ruby
open Satyr.CStr Satyr.Frames

/-! ## Specification: what Ruby prints -/

/-- The words in front of the function name for blocks. -/
def blockText (n : Nat) : Str :=
  if n = 0 then [] else if n = 1 then c!"block in " else c!"block (" ++ natDec n ++ c!" levels) in "

/-- The place of a frame: file, line, and function with its levels of `rescue` and of blocks. -/
structure Place where
  file : Str
  line : Nat
  rescue : Nat
  block : Nat
  special : Bool
  function : Str

/-- The printed function. -/
def Place.functionText (p : Place) : Str := if p.special then '<' :: p.function ++ ['>'] else p.function

/-- The printed form of a frame. -/
def Place.text (p : Place) : Str :=
  p.file ++ ':' :: natDec p.line ++ c!":in `" ++ (List.replicate p.rescue c!"rescue in ").flatten ++ blockText p.block ++
    p.functionText ++ c!"'"

/-- The file name has no backtick, the function name has no quotes and no closing angle bracket, and the name of a function that is
not special starts with none of the words that have a meaning. -/
structure Place.WF (p : Place) : Prop where
  file : '`' ∉ p.file
  line : p.line < 2 ^ 32
  block : p.block < 2 ^ 32
  function : p.function ≠ [] ∧ '\'' ∉ p.function ∧ '>' ∉ p.function
  plain : p.special = false → peek p.function ≠ '<' ∧ (p.block = 0 → ∀ w ∈ [c!"rescue in ", c!"block in ", c!"block ("],
    startsWith (p.function ++ c!"'") w = false)

/-- What should be read. The user name of a home directory is replaced. -/
def Place.frame (p : Place) : RubyFrame := ⟨some (anonymizePath p.file), p.line, p.special, some p.function, p.block, p.rescue⟩

/-- The printed form of a backtrace: the message and class of the exception come after the first frame. -/
def traceText (first : Place) (message cls : Str) (rest : List Place) : Str :=
  first.text ++ c!": " ++ message ++ c!" (" ++ cls ++ c!")\n" ++ rest.flatMap fun p => c!"\tfrom " ++ p.text ++ c!"\n"

/-! ## Proofs -/

theorem backDigits_read (pre ds suf : Str) (hp : pre = [] ∨ ∃ a c, pre = a ++ [c] ∧ IsDec c = false) (hd : ∀ c ∈ ds, IsDec c = true) :
    backDigits (pre ++ (ds ++ suf)) (pre.length + ds.length) = .ok pre.length := by
  induction ds using List.reverseRecOn generalizing suf with
  | nil =>
    rcases hp with rfl | ⟨a, c, rfl, hc⟩
    · rfl
    · have e : (a ++ [c]).length + ([] : Str).length = a.length + 1 := by len
      have e2 : a ++ [c] ++ ([] ++ suf) = a ++ c :: suf := by simp
      rw [e, e2, backDigits, rd_mid a c suf rfl]
      show (if IsDec c = true then _ else _) = _
      rw [if_neg (by simp [hc])]
      simp
  | append_singleton ds d ih =>
    have e : pre.length + (ds ++ [d]).length = (pre.length + ds.length) + 1 := by len
    have e2 : pre ++ (ds ++ [d] ++ suf) = (pre ++ ds) ++ d :: suf := by simp
    have e3 : pre ++ (ds ++ d :: suf) = (pre ++ ds) ++ d :: suf := by simp
    have ih := ih (d :: suf) fun c hc => hd c (by simp [hc])
    rw [e3] at ih
    rw [e, e2, backDigits, rd_mid _ d suf (by len)]
    show (if IsDec d = true then _ else _) = _
    rw [if_pos (hd d (by simp)), ih]

theorem fileAndLine_read (file : Str) (line : Nat) (h : line < 2 ^ 32) :
    fileAndLine (file ++ ':' :: natDec line ++ c!":in ") = .ok (some (anonymizePath file, line)) := by
  obtain ⟨h1, h2, h3⟩ := natDec_spec line
  unfold fileAndLine
  have hl : (file ++ ':' :: natDec line ++ c!":in ").length - 4 = (file ++ ':' :: natDec line).length := by len
  rw [hl, List.drop_left, List.take_left, if_neg (by
    rintro (h | h)
    · revert h; len
    · exact h rfl)]
  have hb := backDigits_read (file ++ [':']) (natDec line) [] (.inr ⟨file, ':', rfl, by decide⟩) h1
  have e : file ++ [':'] ++ (natDec line ++ []) = file ++ ':' :: natDec line := by simp
  have e2 : (file ++ ':' :: natDec line).length = (file ++ [':']).length + (natDec line).length := by len
  rw [e] at hb
  dsimp only
  rw [e2, hb, Out.bind_ok]
  have e3 : file ++ ':' :: natDec line = (file ++ [':']) ++ natDec line := by simp
  have hp := (C25_round_trip line [] (by decide)).1 h
  rw [List.append_nil] at hp
  have hd : (file ++ ':' :: natDec line).drop (file ++ [':']).length = natDec line := by rw [e3, List.drop_left]
  have hk : (file ++ [':']).length - 1 = file.length := by len
  have hne : (file ++ [':']).length ≠ 0 := by len
  rw [hd, hp, Out.bind_ok]
  dsimp only
  rw [if_neg hne, hk, rd_mid file ':' _ rfl, Out.bind_ok, if_neg (by simp), List.take_left]

theorem rescues_read (n : Nat) (s : Str) (h : startsWith s c!"rescue in " = false) (fuel k : Nat) (hf : n < fuel) :
    rescues fuel ((List.replicate n c!"rescue in ").flatten ++ s) k = (k + n, s) := by
  induction n generalizing fuel k with
  | zero =>
    obtain ⟨fuel, rfl⟩ : ∃ m, fuel = m + 1 := ⟨fuel - 1, by omega⟩
    rw [List.replicate_zero, List.flatten_nil, List.nil_append, rescues, skipString_not h]
    rfl
  | succ n ih =>
    obtain ⟨fuel, rfl⟩ : ∃ m, fuel = m + 1 := ⟨fuel - 1, by omega⟩
    rw [List.replicate_succ, List.flatten_cons, List.append_assoc, rescues, skipString_append]
    dsimp only
    rw [if_neg (by decide), ih fuel (k + 1) (by omega)]
    congr 1
    omega

theorem blocks_read (n : Nat) (hn : n < 2 ^ 32) (s : Str)
    (h : n = 0 → startsWith s c!"block in " = false ∧ startsWith s c!"block (" = false) :
    blocks (blockText n ++ s) = .ok (some (n, s)) := by
  unfold blocks blockText
  by_cases h0 : n = 0
  · obtain ⟨ha, hb⟩ := h h0
    rw [if_pos h0, List.nil_append, skipString_not ha, skipString_not hb, h0]
    rfl
  · rw [if_neg h0]
    by_cases h1 : n = 1
    · rw [if_pos h1, skipString_append, h1]
      rfl
    · rw [if_neg h1]
      have e : c!"block (" ++ natDec n ++ c!" levels) in " ++ s = c!"block (" ++ (natDec n ++ (c!" levels) in " ++ s)) := by simp
      rw [e, skipString_not (by rfl), skipString_append]
      dsimp only
      rw [if_neg (by decide), if_neg (by decide), (C25_round_trip n _ (by rfl)).1 hn, Out.bind_ok]
      dsimp only
      rw [skipString_append]
      rfl

theorem functionName_read (p : Place) (h : p.WF) (s : Str) :
    functionName (p.functionText ++ '\'' :: s) = .ok (some (p.special, p.function, s)) := by
  obtain ⟨h1, h2, h3⟩ := h.function
  have hset : ∀ c ∈ p.function, c ∉ c!"'>" := by
    intro c hc
    simp only [List.mem_cons, List.not_mem_nil, or_false]
    rintro (rfl | rfl)
    · exact h2 hc
    · exact h3 hc
  unfold functionName Place.functionText
  cases hs : p.special with
  | true =>
    have e : (if true = true then '<' :: p.function ++ ['>'] else p.function) ++ '\'' :: s = '<' :: (p.function ++ '>' :: '\'' :: s) := by
      simp
    rw [e, skipChar_cons (by decide), Out.bind_ok]
    dsimp only
    rw [parseCspan_append hset (Or.inr (by simp)) h1, Out.bind_ok]
    dsimp only
    rw [closeSpecial, if_pos rfl, skipChar_cons (by decide), Out.bind_ok]
    dsimp only
    rw [if_neg (by decide), skipChar_cons (by decide), Out.bind_ok]
    rfl
  | false =>
    have e : (if false = true then '<' :: p.function ++ ['>'] else p.function) ++ '\'' :: s = p.function ++ '\'' :: s := by
      simp
    rw [e, skipChar_not (by decide) (by rw [peek_append h1]; exact (h.plain hs).1), Out.bind_ok]
    dsimp only
    rw [parseCspan_append hset (Or.inr (by simp)) h1, Out.bind_ok]
    dsimp only
    rw [closeSpecial, if_neg (by decide), Out.bind_ok]
    dsimp only
    rw [if_neg (by decide), skipChar_cons (by decide), Out.bind_ok]
    rfl

theorem startsWith_head {c : Char} {s w : Str} {d : Char} (h : d ≠ c) : startsWith (c :: s) (d :: w) = false := by
  rw [startsWith, List.isPrefixOf_cons_cons]
  simp [h]

/-- Whether a text starts with a word that does not contain the last character of the text is decided before that character. -/
theorem startsWith_end {a w : Str} {q : Char} (h : q ∉ w) (r : Str) : startsWith (a ++ q :: r) w = startsWith (a ++ [q]) w := by
  induction a generalizing w with
  | nil =>
    cases w with
    | nil => simp [startsWith]
    | cons d w =>
      have : d ≠ q := fun e => h (by simp [e])
      rw [List.nil_append, List.nil_append, startsWith_head this, startsWith_head this]
  | cons c a ih =>
    cases w with
    | nil => simp [startsWith]
    | cons d w =>
      have := ih (w := w) (fun hm => h (by simp [hm]))
      unfold startsWith at this ⊢
      rw [List.cons_append, List.cons_append, List.isPrefixOf_cons_cons, List.isPrefixOf_cons_cons, this]

/-- C53: a frame as Ruby prints it is read with its file, line, function and levels. -/
theorem C53_frame (p : Place) (h : p.WF) (rest : Str) : parseFrame (p.text ++ rest) = .ok (some (p.frame, rest)) := by
  have hbt : ∀ c ∈ p.file ++ ':' :: natDec p.line ++ c!":in ", c ∉ c!"`" := by
    intro c hc
    simp only [List.mem_cons, List.not_mem_nil, or_false]
    rintro rfl
    have hn : '`' ∉ natDec p.line := fun hm => absurd ((natDec_spec p.line).1 _ hm) (by decide)
    simp [h.file, hn] at hc
  have e : p.text ++ rest = (p.file ++ ':' :: natDec p.line ++ c!":in ") ++ '`' ::
      ((List.replicate p.rescue c!"rescue in ").flatten ++ (blockText p.block ++ (p.functionText ++ '\'' :: rest))) := by
    simp [Place.text]
  have hsr : ∀ w ∈ [c!"rescue in ", c!"block in ", c!"block ("], p.block = 0 → startsWith (p.functionText ++ '\'' :: rest) w = false := by
    intro w hw hb
    have hq : '\'' ∉ w := by
      simp only [List.mem_cons, List.not_mem_nil, or_false] at hw
      rcases hw with rfl | rfl | rfl <;> decide
    rw [startsWith_end hq]
    unfold Place.functionText
    cases hs : p.special with
    | true =>
      simp only [List.mem_cons, List.not_mem_nil, or_false] at hw
      rcases hw with rfl | rfl | rfl <;> rfl
    | false => exact (h.plain hs).2 hb w hw
  have hresc : startsWith (blockText p.block ++ (p.functionText ++ '\'' :: rest)) c!"rescue in " = false := by
    by_cases hb : p.block = 0
    · have : blockText p.block = [] := by rw [blockText, if_pos hb]
      rw [this, List.nil_append]
      exact hsr _ (by simp) hb
    · unfold blockText
      rw [if_neg hb]
      split <;> rfl
  unfold parseFrame
  rw [e, parseCspan_append hbt (Or.inr (by simp)) (by simp), Out.bind_ok]
  dsimp only
  rw [fileAndLine_read _ _ h.line, Out.bind_ok]
  dsimp only
  rw [skipChar_cons (by decide), Out.bind_ok]
  dsimp only
  rw [if_neg (by decide), rescues_read p.rescue _ hresc _ 0 (by
    have : ((List.replicate p.rescue c!"rescue in ").flatten).length = p.rescue * 10 := by simp [List.length_flatten]
    rw [List.length_append, this]
    omega)]
  dsimp only
  rw [blocks_read _ h.block _ (fun hb => ⟨hsr _ (by simp) hb, hsr _ (by simp) hb⟩), Out.bind_ok]
  dsimp only
  rw [functionName_read p h, Out.bind_ok]
  simp [Place.frame]

theorem backParen_read (pre cls : Str) (h : '(' ∉ cls) (suf : Str) :
    backParen (pre ++ '(' :: (cls ++ suf)) (pre.length + 1 + cls.length) = .ok (pre.length + 1) := by
  induction cls using List.reverseRecOn generalizing suf with
  | nil =>
    rw [List.length_nil, Nat.add_zero, backParen, rd_mid pre '(' _ rfl]
    rfl
  | append_singleton cls d ih =>
    have hd : d ≠ '(' := fun e => h (by simp [e])
    have e : pre.length + 1 + (cls ++ [d]).length = (pre.length + 1 + cls.length) + 1 := by len
    have e2 : pre ++ '(' :: (cls ++ [d] ++ suf) = (pre ++ '(' :: cls) ++ d :: suf := by simp
    have e3 : pre ++ '(' :: (cls ++ d :: suf) = (pre ++ '(' :: cls) ++ d :: suf := by simp
    have ih := ih (fun hm => h (by simp [hm])) (d :: suf)
    rw [e3] at ih
    rw [e, e2, backParen, rd_mid _ d suf (by len)]
    show (if d ≠ '(' then _ else _) = _
    rw [if_pos hd, ih]

theorem exceptionClass_read (message cls : Str) (hc : cls ≠ []) (h : '(' ∉ cls) :
    exceptionClass (message ++ c!" (" ++ cls ++ c!")\n") = .ok (some cls) := by
  unfold exceptionClass
  have hl : (message ++ c!" (" ++ cls ++ c!")\n").length - 2 = (message ++ c!" (" ++ cls).length := by len
  rw [hl, List.drop_left, List.take_left, if_neg (by
    rintro (h | h)
    · revert h; len
    · exact h rfl)]
  have hb := backParen_read (message ++ [' ']) cls h []
  have e : message ++ [' '] ++ '(' :: (cls ++ []) = message ++ c!" (" ++ cls := by simp
  have e2 : (message ++ [' ']).length + 1 + cls.length = (message ++ c!" (" ++ cls).length := by len
  rw [e, e2] at hb
  dsimp only
  have hd : (message ++ c!" (" ++ cls).drop ((message ++ [' ']).length + 1) = cls := by
    have : (message ++ [' ']).length + 1 = (message ++ c!" (").length := by len
    rw [this, List.drop_left]
  have hk : (message ++ [' ']).length + 1 - 1 = (message ++ [' ']).length := by omega
  have e3 : message ++ c!" (" ++ cls = (message ++ [' ']) ++ '(' :: cls := by simp
  rw [hb, Out.bind_ok, hd, if_neg (by simp [hc]), if_neg (by omega), hk, e3, rd_mid _ '(' _ rfl, Out.bind_ok, if_neg (by simp)]

theorem framesLoop_read (ps : List Place) (h : ∀ p ∈ ps, p.WF) (fuel : Nat) (acc : List RubyFrame)
    (hf : (ps.flatMap fun p => c!"\tfrom " ++ p.text ++ c!"\n").length < fuel) :
    framesLoop fuel (ps.flatMap fun p => c!"\tfrom " ++ p.text ++ c!"\n") acc = .ok (some (acc ++ ps.map Place.frame, [])) := by
  induction ps generalizing fuel acc with
  | nil =>
    obtain ⟨fuel, rfl⟩ : ∃ m, fuel = m + 1 := ⟨fuel - 1, by omega⟩
    rw [List.flatMap_nil, framesLoop, if_pos (show peek [] = '\x00' from rfl)]
    simp
  | cons p ps ih =>
    obtain ⟨fuel, rfl⟩ : ∃ m, fuel = m + 1 := ⟨fuel - 1, by omega⟩
    have e : (p :: ps).flatMap (fun p => c!"\tfrom " ++ p.text ++ c!"\n") =
        c!"\tfrom " ++ (p.text ++ '\n' :: ps.flatMap (fun p => c!"\tfrom " ++ p.text ++ c!"\n")) := by
      simp
    rw [e] at hf ⊢
    have ih := ih (fun q hq => h q (by simp [hq])) fuel (acc ++ [p.frame]) (by
      rw [List.length_append, List.length_append, List.length_cons (a := '\n')] at hf; omega)
    generalize ps.flatMap (fun p => c!"\tfrom " ++ p.text ++ c!"\n") = rest at ih hf ⊢
    rw [framesLoop, if_neg (by show ¬ '\t' = '\x00'; decide), skipString_append]
    dsimp only
    rw [if_neg (by decide), C53_frame p (h p (by simp)), Out.bind_ok]
    dsimp only
    rw [skipChar_cons (by decide), Out.bind_ok]
    dsimp only
    rw [if_neg (by simp), ih]
    simp

/-- C53: from a backtrace as Ruby prints it, with a message that has no tabulators, exactly the frames and the class of the
exception are read. -/
theorem C53_read_partial (first : Place) (message cls : Str) (rest : List Place) (h : ∀ p ∈ first :: rest, p.WF) (hm : '\t' ∉ message)
    (hc : cls ≠ []) (hc1 : '(' ∉ cls) (hc2 : '\t' ∉ cls) :
    parse (traceText first message cls rest) = .ok (some (⟨some cls, (first :: rest).map Place.frame⟩, [])) := by
  have e : traceText first message cls rest = first.text ++ (c!": " ++ ((message ++ c!" (" ++ cls ++ c!")\n") ++
      rest.flatMap fun p => c!"\tfrom " ++ p.text ++ c!"\n")) := by
    simp [traceText]
  have ht : ∀ c ∈ message ++ c!" (" ++ cls ++ c!")\n", c ∉ c!"\t" := by
    intro c hcm
    simp only [List.mem_cons, List.not_mem_nil, or_false]
    rintro rfl
    simp [hm, hc2] at hcm
  have hr : (rest.flatMap fun p => c!"\tfrom " ++ p.text ++ c!"\n") = [] ∨
      peek (rest.flatMap fun p => c!"\tfrom " ++ p.text ++ c!"\n") ∈ c!"\t" := by
    cases rest with
    | nil => exact .inl rfl
    | cons p ps => exact .inr (by simp)
  unfold parse
  rw [e, C53_frame first (h first (by simp)), Out.bind_ok]
  dsimp only
  rw [skipString_append]
  dsimp only
  rw [if_neg (by decide), parseCspan_append ht hr (by simp), Out.bind_ok]
  dsimp only
  rw [exceptionClass_read message cls hc hc1, Out.bind_ok]
  dsimp only
  rw [framesLoop_read rest (fun p hp => h p (by simp [hp])) _ _ (by omega), Out.bind_ok]
  simp

example : parse c!"/a:1.rb:13:in `rescue in block (2 levels) in f': bad (x) thing (A::B)\n\tfrom b.rb:7:in `<main>'\n" =
    .ok (some (⟨some c!"A::B", [⟨some c!"/a:1.rb", 13, false, some c!"f", 2, 1⟩, ⟨some c!"b.rb", 7, true, some c!"main", 0, 0⟩]⟩, [])) := by
  decide +kernel

example : ∃ p q : Place, p.WF ∧ q.WF ∧ p.text = c!"/a:1.rb:13:in `rescue in block (2 levels) in f'" ∧ q.text = c!"b.rb:7:in `<main>'" :=
  ⟨⟨c!"/a:1.rb", 13, 1, 2, false, c!"f"⟩, ⟨c!"b.rb", 7, 0, 0, true, c!"main"⟩,
    ⟨by decide, by decide, by decide, by decide, fun _ => ⟨by decide, by decide⟩⟩,
    ⟨by decide, by decide, by decide, by decide, by rintro ⟨⟩⟩, by decide +kernel, by decide +kernel⟩

/-- C53 does not hold for comparison operators: the method `<=>` is read as a special function `=`, and a frame of the method
`<` is not read at all. -/
theorem C53_not_operator :
    parseFrame c!"a.rb:1:in `<=>'" = .ok (some (⟨some c!"a.rb", 1, true, some c!"=", 0, 0⟩, [])) ∧
    parseFrame c!"a.rb:1:in `<'" = .ok none ∧ parseFrame c!"a.rb:1:in `>='" = .ok none := by decide +kernel

/-- C53 does not hold for messages of several lines: Ruby prints the class after the first of them, and the backtrace is
rejected. -/
theorem C53_not_multiline :
    parse c!"a.rb:1:in `f': first (RuntimeError)\nsecond\n\tfrom b.rb:7:in `<main>'\n" = .ok none := by decide +kernel

/-! ## The text is not left -/

theorem backDigits_fine (q : Str) (k : Nat) (h : k ≤ q.length) : ∃ r, backDigits q k = .ok r ∧ r ≤ k := by
  induction k with
  | zero => exact ⟨0, rfl, le_refl _⟩
  | succ k ih =>
    rw [backDigits, rd_ok (by omega)]
    show ∃ r, (if IsDec (peek (q.drop k)) = true then _ else _) = _ ∧ _
    split
    · obtain ⟨r, h1, h2⟩ := ih (by omega)
      exact ⟨r, h1, by omega⟩
    · exact ⟨_, rfl, le_refl _⟩

theorem backParen_fine (q : Str) (k : Nat) (h : k ≤ q.length) : ∃ r, backParen q k = .ok r ∧ r ≤ k := by
  induction k with
  | zero => exact ⟨0, rfl, le_refl _⟩
  | succ k ih =>
    rw [backParen, rd_ok (by omega)]
    show ∃ r, (if peek (q.drop k) ≠ '(' then _ else _) = _ ∧ _
    split
    · obtain ⟨r, h1, h2⟩ := ih (by omega)
      exact ⟨r, h1, by omega⟩
    · exact ⟨_, rfl, le_refl _⟩

theorem fileAndLine_fine (l : Str) : Fine (fileAndLine l) := by
  unfold fileAndLine
  refine Fine.ite (fun _ => .ok _) fun _ => ?_
  dsimp only
  obtain ⟨p, h1, h2⟩ := backDigits_fine (l.take (l.length - 4)) _ (le_refl _)
  rw [h1, Out.bind_ok]
  refine (parseUint32_fine _).bind fun a _ => ?_
  obtain ⟨n, v, t⟩ := a
  cases v with
  | none => exact ⟨_, rfl⟩
  | some v =>
    refine Fine.ite (fun _ => .ok _) fun _ => Fine.bind ⟨_, rd_ok (by omega)⟩ fun _ _ => Fine.ite (fun _ => .ok _) fun _ => .ok _

theorem exceptionClass_fine (m : Str) : Fine (exceptionClass m) := by
  unfold exceptionClass
  refine Fine.ite (fun _ => .ok _) fun _ => ?_
  dsimp only
  obtain ⟨p, h1, h2⟩ := backParen_fine (m.take (m.length - 2)) _ (le_refl _)
  rw [h1, Out.bind_ok]
  exact Fine.ite (fun _ => .ok _) fun _ => Fine.ite (fun _ => .ok _) fun _ => Fine.bind ⟨_, rd_ok (by omega)⟩ fun _ _ =>
    Fine.ite (fun _ => .ok _) fun _ => .ok _

theorem blocks_fine (s : Str) : Fine (blocks s) := by
  unfold blocks
  dsimp only
  refine Fine.ite (fun _ => .ok _) fun _ => Fine.ite (fun _ => .ok _) fun _ => (parseUint32_fine _).bind fun a _ => ?_
  obtain ⟨n, v, t⟩ := a
  cases v with
  | none => exact ⟨_, rfl⟩
  | some v => exact Fine.ite (fun _ => .ok _) fun _ => .ok _

theorem functionName_fine (s : Str) : Fine (functionName s) := by
  unfold functionName
  refine (skipChar_fine s (by decide)).bind fun a _ => (parseCharCspan_fine _ _).bind fun b _ => ?_
  obtain ⟨b, t⟩ := b
  cases b with
  | none => exact ⟨_, rfl⟩
  | some b =>
    refine Fine.bind (x := closeSpecial _ _) (Fine.ite (fun _ => skipChar_fine _ (by decide)) fun _ => .ok _) fun c _ => Fine.ite (fun _ => .ok _) fun _ =>
      (skipChar_fine _ (by decide)).bind fun _ _ => Fine.ite (fun _ => .ok _) fun _ => .ok _

/-- C56 for Ruby frames: whatever the text is, reading it is well-defined. -/
theorem C56_ruby_frame (inp : Str) : ∃ r, parseFrame inp = .ok r := by
  unfold parseFrame
  refine (parseCharCspan_fine inp _).bind fun a _ => ?_
  obtain ⟨a, s⟩ := a
  cases a with
  | none => exact ⟨_, rfl⟩
  | some l =>
    refine (fileAndLine_fine l).bind fun b _ => ?_
    cases b with
    | none => exact ⟨_, rfl⟩
    | some b =>
      refine (skipChar_fine _ (by decide)).bind fun c _ => Fine.ite (fun _ => .ok _) fun _ => (blocks_fine _).bind fun d _ => ?_
      cases d with
      | none => exact ⟨_, rfl⟩
      | some d =>
        refine (functionName_fine _).bind fun e _ => ?_
        cases e <;> exact ⟨_, rfl⟩

theorem rescues_len (fuel : Nat) (s : Str) (n : Nat) : (rescues fuel s n).2.length ≤ s.length := by
  induction fuel generalizing s n with
  | zero => exact le_refl _
  | succ fuel ih =>
    have h := skipString_len s c!"rescue in "
    rw [rescues]
    dsimp only
    split
    · dsimp only; omega
    · have := ih (skipString s c!"rescue in ").2 (n + 1)
      omega

/-- The fuel of the loop over `rescue in ` suffices: where it stops there is none. -/
theorem rescues_done (fuel : Nat) (s : Str) (n : Nat) (h : s.length < fuel) : startsWith (rescues fuel s n).2 c!"rescue in " = false := by
  induction fuel generalizing s n with
  | zero => omega
  | succ fuel ih =>
    have hl := skipString_len s c!"rescue in "
    rw [rescues]
    dsimp only
    split
    · rename_i h0
      rcases skipString_cases s c!"rescue in " with ⟨b, rfl, hb⟩ | hb
      · rw [hb] at h0; exact absurd h0 (show ¬ c!"rescue in ".length = 0 by decide)
      · rw [hb]
        dsimp only
        by_contra hc
        rw [Bool.not_eq_false, startsWith_split] at hc
        obtain ⟨t, rfl⟩ := hc
        rw [skipString_append] at hb
        exact absurd (congrArg Prod.fst hb) (show ¬ c!"rescue in ".length = 0 by decide)
    · exact ih _ _ (by omega)

theorem blocks_post (s : Str) : Post (blocks s) fun r => ∀ x, r = some x → x.2.length ≤ s.length := by
  have h1 := skipString_len s c!"block in "
  have h2 := skipString_len s c!"block ("
  unfold blocks
  dsimp only
  refine Post.ite (fun _ => .ok ?_) fun _ => Post.ite (fun _ => .ok ?_) fun _ => ?_
  · rintro x ⟨⟩; dsimp only; omega
  · rintro x ⟨⟩; exact le_refl _
  · refine (parseUint32_yields _).post.bind fun a ha => ?_
    obtain ⟨n, v, t⟩ := a
    dsimp only at ha
    cases v with
    | none => exact .ok (by rintro x ⟨⟩)
    | some v =>
      have h3 := skipString_len t c!" levels) in "
      refine Post.ite (fun _ => .ok (by rintro x ⟨⟩)) fun _ => .ok ?_
      rintro x ⟨⟩
      dsimp only
      omega

theorem functionName_post (s : Str) : Post (functionName s) fun r => ∀ x, r = some x → x.2.2.length ≤ s.length := by
  unfold functionName
  refine (skipChar_yields s (by decide)).post.bind fun a ha => (parseCharCspan_yields a.2 _).post.bind fun b hb => ?_
  obtain ⟨b, t⟩ := b
  dsimp only at hb
  cases b with
  | none => exact .ok (by rintro x ⟨⟩)
  | some b =>
    have hc : Post (closeSpecial a.1 t) fun r => r.2.length ≤ t.length :=
      Post.ite (fun _ => (skipChar_yields t (by decide)).post) fun _ => .ok (le_refl _)
    refine hc.bind fun c hc => Post.ite (fun _ => .ok (by rintro x ⟨⟩)) fun _ => (skipChar_yields c.2 (by decide)).post.bind fun d hd =>
      Post.ite (fun _ => .ok (by rintro x ⟨⟩)) fun _ => .ok ?_
    rintro x ⟨⟩
    dsimp only
    omega

/-- Reading a frame does not make the text longer. -/
theorem parseFrame_yields (inp : Str) : Yields (parseFrame inp) fun r => ∀ x, r = some x → x.2.length ≤ inp.length := by
  refine Fine.yields (C56_ruby_frame inp) ?_
  unfold parseFrame
  refine (parseCharCspan_yields inp _).post.bind fun a ha => ?_
  obtain ⟨a, s⟩ := a
  dsimp only at ha
  cases a with
  | none => exact .ok (by rintro x ⟨⟩)
  | some l =>
    refine (Post.any _).bind fun b _ => ?_
    cases b with
    | none => exact .ok (by rintro x ⟨⟩)
    | some b =>
      refine (skipChar_yields s (by decide)).post.bind fun c hc => Post.ite (fun _ => .ok (by rintro x ⟨⟩)) fun _ => ?_
      have hr := rescues_len (c.2.length + 1) c.2 0
      refine (blocks_post (rescues (c.2.length + 1) c.2 0).2).bind fun d hd => ?_
      cases d with
      | none => exact .ok (by rintro x ⟨⟩)
      | some d =>
        obtain ⟨d, t⟩ := d
        have h1 := hd _ rfl
        dsimp only at h1
        refine (functionName_post t).bind fun e he => ?_
        cases e with
        | none => exact .ok (by rintro x ⟨⟩)
        | some e =>
          obtain ⟨e1, e2, e3⟩ := e
          have h2 := he _ rfl
          dsimp only at h2
          refine .ok ?_
          rintro x ⟨⟩
          dsimp only
          omega

theorem framesLoop_fine : ∀ (fuel : Nat) (s : Str) (acc : List RubyFrame), s.length < fuel → Fine (framesLoop fuel s acc)
  | 0, s, acc, h => by omega
  | n + 1, s, acc, h => by
    have hl := skipString_len s c!"\tfrom "
    rw [framesLoop]
    dsimp only
    refine Fine.ite (fun _ => .ok _) fun _ => Fine.ite (fun _ => .ok _) fun h0 => ?_
    obtain ⟨r, hr, hlt⟩ := parseFrame_yields (skipString s c!"\tfrom ").2
    rw [hr, Out.bind_ok]
    cases r with
    | none => exact ⟨_, rfl⟩
    | some x =>
      have := hlt x rfl
      refine (skipChar_fine x.2 (by decide)).bind fun y hy => Fine.ite (fun _ => .ok _) fun _ => framesLoop_fine n _ _ ?_
      have := (skipChar_yields x.2 (c := '\n') (by decide)).post y hy
      omega

/-- C56 for Ruby backtraces: whatever the text is, reading it is well-defined and comes to an end. -/
theorem C56_ruby_trace (inp : Str) : ∃ r, parse inp = .ok r := by
  unfold parse
  refine Fine.bind (C56_ruby_frame inp) fun a _ => ?_
  cases a with
  | none => exact ⟨_, rfl⟩
  | some a =>
    refine Fine.ite (fun _ => .ok _) fun _ => (parseCharCspan_fine _ _).bind fun b _ => ?_
    obtain ⟨b, s⟩ := b
    cases b with
    | none => exact ⟨_, rfl⟩
    | some m =>
      refine (exceptionClass_fine m).bind fun c _ => ?_
      cases c with
      | none => exact ⟨_, rfl⟩
      | some c =>
        refine (framesLoop_fine _ _ _ (by omega)).bind fun r _ => ?_
        cases r <;> exact ⟨_, rfl⟩

end Satyr.Text.Ruby
