import Verif.Text.JsModel
import Mathlib.Data.List.Induction
import Mathlib.Tactic.ByContra
import Mathlib.Tactic.Push
import Mathlib.Tactic.Set
/-!
# C51: JavaScript frames are read back
-/
namespace Satyr.Text.Js
open Satyr.CStr Satyr.Frames

theorem backColon_digits (pre ds suf : Str) (lo : Nat) (hd : ∀ c ∈ ds, IsDec c = true) (h : lo < pre.length) :
    backColon (pre ++ ':' :: (ds ++ suf)) lo (pre.length + ds.length) = .ok (some pre.length) := by
  induction ds using List.reverseRecOn generalizing suf with
  | nil =>
    obtain ⟨k, hk⟩ : ∃ k, pre.length = k + 1 := ⟨pre.length - 1, by omega⟩
    rw [List.length_nil, Nat.add_zero, List.nil_append, hk, backColon, if_pos (by omega), rd_mid pre ':' suf hk.symm]
    rfl
  | append_singleton ds d ih =>
    have hc := hd d (by simp)
    have hne : d ≠ ':' := by rintro rfl; exact absurd hc (by decide)
    have e : pre ++ ':' :: (ds ++ [d] ++ suf) = (pre ++ ':' :: ds) ++ d :: suf := by simp
    have e2 : pre.length + (ds ++ [d]).length = (pre.length + ds.length) + 1 := by len
    rw [e2, backColon, if_pos (by omega), e, rd_mid _ d suf (by len)]
    have ih := ih (d :: suf) fun c hc => hd c (by simp [hc])
    have e3 : pre ++ ':' :: (ds ++ d :: suf) = (pre ++ ':' :: ds) ++ d :: suf := by simp
    rw [e3] at ih
    show (if d ≠ ':' then _ else _) = _
    rw [if_pos hne, if_neg (by simp [hc]), ih]

theorem drop_len {a b : Str} {n : Nat} (h : n = a.length) : (a ++ b).drop n = b := by subst h; simp

/-- The position in front of the cursor is read, whatever the file name is. -/
theorem position_read (pre file d1 d2 suf : Str) (h1 : ∀ c ∈ d1, IsDec c = true) (h2 : ∀ c ∈ d2, IsDec c = true)
    (n1 : d1 ≠ []) (n2 : d2 ≠ []) (v1 : decValue d1 < 2 ^ 32) (v2 : decValue d2 < 2 ^ 32) (hf : file ≠ [])
    (hs : IsDec (peek suf) = false) :
    position (pre ++ file ++ ':' :: d1 ++ ':' :: d2 ++ suf) pre.length
      (pre ++ file ++ ':' :: d1 ++ ':' :: d2).length.pred = .ok (some (anonymizePath file, decValue d1, decValue d2)) := by
  have hfl : 0 < file.length := List.length_pos_iff.2 hf
  have hl1 : 0 < d1.length := List.length_pos_iff.2 n1
  have e1 : pre ++ file ++ ':' :: d1 ++ ':' :: d2 ++ suf = (pre ++ file ++ ':' :: d1) ++ ':' :: (d2 ++ suf) := by simp
  have e1' : (pre ++ file ++ ':' :: d1) ++ ':' :: (d2 ++ suf) = (pre ++ file ++ ':' :: d1 ++ [':']) ++ (d2 ++ suf) := by simp
  have e2 : (pre ++ file ++ ':' :: d1) ++ ':' :: (d2 ++ suf) = (pre ++ file) ++ ':' :: (d1 ++ ':' :: (d2 ++ suf)) := by simp
  have e2' : (pre ++ file ++ ':' :: d1) ++ ':' :: (d2 ++ suf) = (pre ++ file ++ [':']) ++ (d1 ++ ':' :: (d2 ++ suf)) := by simp
  have e3 : (pre ++ file ++ ':' :: d1) ++ ':' :: (d2 ++ suf) = pre ++ (file ++ ':' :: (d1 ++ ':' :: (d2 ++ suf))) := by simp
  have lc : (pre ++ file ++ ':' :: d1 ++ ':' :: d2).length.pred = (pre ++ file ++ ':' :: d1).length + d2.length := by
    len
  have lt : (pre ++ file ++ ':' :: d1).length - 1 = (pre ++ file).length + d1.length := by len
  unfold position
  rw [e1, lc, backColon_digits _ d2 suf _ h2 (by len), Out.bind_ok]
  dsimp only
  rw [if_neg (by len), e1', drop_len (by len), parseUint32_digits h2 n2 v2 hs, Out.bind_ok, ← e1']
  dsimp only
  rw [lt, e2, backColon_digits _ d1 _ _ h1 (by len), Out.bind_ok]
  dsimp only
  rw [if_neg (by len), ← e2, e2', drop_len (by len), parseUint32_digits h1 n1 v1 (by rw [peek_cons]; decide), Out.bind_ok,
    ← e2']
  dsimp only
  rw [strndupTo, if_neg (by len), e3, drop_len rfl, Out.bind_ok, strndup]
  have : (pre ++ file).length - pre.length = file.length := by simp
  rw [this, List.take_left]

/-- A text that starts a new line or ends. -/
def LineEnd (tail : Str) : Prop := tail = [] ∨ peek tail = '\n'

theorem LineEnd.nul {tail : Str} (h : LineEnd tail) (a : Str) (ha : '\n' ∉ a) : strchrnulI '\n' (a ++ tail) = a.length := by
  rcases h with rfl | h
  · rw [List.append_nil]; exact strchrnulI_all ha
  · cases tail with
    | nil => exact absurd h (by decide)
    | cons c t => rw [peek_cons] at h; rw [h]; exact strchrnulI_append ha t

theorem LineEnd.notDec {tail : Str} (h : LineEnd tail) : IsDec (peek tail) = false := by
  rcases h with rfl | h
  · rfl
  · rw [h]; rfl

theorem LineEnd.cspan {tail : Str} (h : LineEnd tail) (a : Str) (ha : '\n' ∉ a) : skipCharCspan (a ++ tail) c!"\n" = .ok (a.length, tail) :=
  skipCspan_append (fun c hc => by simp; rintro rfl; exact ha hc) (h.imp id fun h => by simp [h])

theorem dec_not {c : Char} (hc : c ∈ c!"\n :()") {ds : Str} (h : ∀ c ∈ ds, IsDec c = true) : c ∉ ds := fun hm => by
  have h1 := h c hm
  revert hc h1
  simp only [List.mem_cons, List.not_mem_nil, or_false]
  rintro (rfl | rfl | rfl | rfl | rfl) <;> decide

theorem backSpaces_stay (a : Str) (c : Char) (b : Str) (lo : Nat) (hc : c ≠ ' ') :
    backSpaces (a ++ c :: b) lo a.length = .ok a.length := by
  cases h : a.length with
  | zero => rfl
  | succ k =>
    rw [backSpaces]
    split
    · rw [rd_mid a c b h.symm]
      show (if c = ' ' then _ else _) = _
      rw [if_neg hc]
    · rfl

/-- What a printed frame looks like. -/
def posText (file : Str) (line column : Nat) : Str := file ++ ':' :: natDec line ++ ':' :: natDec column

theorem posText_newline {file : Str} (line column : Nat) (h : '\n' ∉ file) : '\n' ∉ posText file line column := by
  have h1 := dec_not (c := '\n') (by decide) (natDec_spec line).1
  have h2 := dec_not (c := '\n') (by decide) (natDec_spec column).1
  simp [posText, h, h1, h2]

theorem posText_last (file : Str) (line column : Nat) : ∃ a d, posText file line column = a ++ [d] ∧ IsDec d = true := by
  obtain ⟨h1, h2, -⟩ := natDec_spec column
  refine ⟨file ++ ':' :: natDec line ++ ':' :: (natDec column).dropLast, (natDec column).getLast h2, ?_, h1 _ (List.getLast_mem h2)⟩
  conv => lhs; rw [posText, ← List.dropLast_append_getLast h2]
  simp

theorem finish_read (pre file : Str) (line column : Nat) (suf : Str) (name : Option Str) (v1 : line < 2 ^ 32) (v2 : column < 2 ^ 32)
    (hf : file ≠ []) (hnl : '\n' ∉ file) (suf' : Str) (hsuf : '\n' ∉ suf') (hd : IsDec (peek (suf' ++ suf)) = false) (hs : LineEnd suf) :
    finish (pre ++ posText file line column ++ suf' ++ suf) name pre.length (pre ++ posText file line column).length.pred =
      .ok (some (⟨some (anonymizePath file), line, column, name⟩, suf)) := by
  obtain ⟨a1, a2, a3⟩ := natDec_spec line
  obtain ⟨b1, b2, b3⟩ := natDec_spec column
  have := position_read pre file (natDec line) (natDec column) (suf' ++ suf) a1 b1 a2 b2 (by rwa [a3]) (by rwa [b3]) hf hd
  unfold finish
  have e : pre ++ posText file line column ++ suf' ++ suf = pre ++ file ++ ':' :: natDec line ++ ':' :: natDec column ++ (suf' ++ suf) := by
    simp [posText]
  have el : (pre ++ posText file line column).length = (pre ++ file ++ ':' :: natDec line ++ ':' :: natDec column).length := by
    simp [posText]
  rw [e, el, this, Out.bind_ok, ← e]
  dsimp only
  have e2 : pre ++ posText file line column ++ suf' ++ suf = pre ++ ((posText file line column ++ suf') ++ suf) := by simp
  rw [e2, drop_len rfl, hs.cspan _ (by
    intro h
    rcases List.mem_append.1 h with h | h
    · exact posText_newline line column hnl h
    · exact hsuf h), Out.bind_ok, a3, b3]

/-- The frames whose text is not ambiguous. A position without function name must not start with a blank, and function names
are not empty and have no blanks. -/
structure Clean (f : JsFrame) (file : Str) : Prop where
  fileName : f.fileName = some file
  nonempty : file ≠ []
  newline : '\n' ∉ file
  line : f.fileLine < 2 ^ 32
  column : f.lineColumn < 2 ^ 32
  noName : f.functionName = none → peek file ≠ ' '
  name : ∀ n, f.functionName = some n → n ≠ [] ∧ ' ' ∉ n ∧ '\n' ∉ n

/-- C51: a frame printed by `sr_js_frame_append_to_str`, with any indentation and followed by the end of the line, is read back
with its function name, line and column, and with its file name, in which a user name is replaced. The file name may contain
colons, blanks and parentheses. -/
theorem C51_read_back (f : JsFrame) (file ind tail : Str) (h : Clean f file) (hi : ∀ c ∈ ind, c = ' ') (ht : LineEnd tail) :
    ∃ text, printFrame f = .ok text ∧
      parseFrame (ind ++ text ++ tail) = .ok (some ({ f with fileName := some (anonymizePath file) }, tail)) := by
  obtain ⟨fileName, line, column, name⟩ := f
  obtain ⟨hf, hne, hnl, hl, hc, hnn, hname⟩ := h
  dsimp only at hf hl hc hnn hname
  subst hf
  have start : ∀ body : Str, peek (body ++ tail) ≠ ' ' →
      parseFrame (ind ++ (c!"at " ++ body) ++ tail) = parseAt (ind ++ (c!"at " ++ body) ++ tail) (ind ++ c!"at ").length := by
    intro body hb
    unfold parseFrame
    have e : ind ++ (c!"at " ++ body) ++ tail = ind ++ (c!"at " ++ (body ++ tail)) := by simp
    rw [e, skipSpan_append (fun c hc => by simp [hi c hc]) (by show 'a' ∉ c!" "; decide), Out.bind_ok]
    dsimp only
    rw [skipString_append]
    dsimp only
    have hb' := skipSpan_append (a := []) (b := body ++ tail) (set := c!" ") (by simp) (by simpa using hb)
    rw [List.nil_append] at hb'
    rw [if_neg (by decide), hb', Out.bind_ok]
    simp
  have hdot : peek (posText file line column) = peek file := by
    unfold posText
    rw [List.append_assoc, peek_append hne]
  have hpne : posText file line column ≠ [] := by unfold posText; cases file <;> simp
  cases name with
  | none =>
    refine ⟨c!"at " ++ posText file line column, by simp [printFrame, posText], ?_⟩
    rw [start _ (by rw [peek_append hpne, hdot]; exact hnn rfl)]
    have e : ind ++ (c!"at " ++ posText file line column) ++ tail = (ind ++ c!"at ") ++ posText file line column ++ [] ++ tail := by simp
    rw [e]
    unfold parseAt
    obtain ⟨a, d, hd, hdd⟩ := posText_last file line column
    have lc : (ind ++ c!"at ").length + (posText file line column).length - 1 = (ind ++ c!"at " ++ a).length := by rw [hd]; simp; omega
    have e3 : ind ++ c!"at " ++ posText file line column ++ [] ++ tail = (ind ++ c!"at " ++ a) ++ d :: tail := by rw [hd]; simp
    have e4 : ind ++ c!"at " ++ posText file line column ++ [] ++ tail = (ind ++ c!"at ") ++ (posText file line column ++ tail) := by simp
    have hb : d ≠ ' ' := by rintro rfl; exact absurd hdd (by decide)
    have hp : d ≠ ')' := by rintro rfl; exact absurd hdd (by decide)
    have hdrop : (ind ++ c!"at " ++ posText file line column ++ [] ++ tail).drop (ind ++ c!"at ").length = posText file line column ++ tail := by
      rw [e4]; exact drop_len rfl
    rw [hdrop, ht.nul _ (posText_newline line column hnl), lc]
    have hbk : backSpaces (ind ++ c!"at " ++ posText file line column ++ [] ++ tail) (ind ++ c!"at ").length (ind ++ c!"at " ++ a).length =
        .ok (ind ++ c!"at " ++ a).length := by
      rw [e3]; exact backSpaces_stay _ d tail _ hb
    have hrd : rd (ind ++ c!"at " ++ posText file line column ++ [] ++ tail) (ind ++ c!"at " ++ a).length = .ok d := by
      rw [e3]; exact rd_mid _ d tail rfl
    rw [hbk, Out.bind_ok, hrd, Out.bind_ok, if_neg hp]
    have hp : (ind ++ c!"at " ++ a).length = (ind ++ c!"at " ++ posText file line column).length.pred := by rw [hd]; simp
    rw [hp, finish_read (ind ++ c!"at ") file line column tail none hl hc hne hnl [] (by simp) (by simpa using ht.notDec) ht]
  | some name =>
    obtain ⟨hn1, hn2, hn3⟩ := hname name rfl
    refine ⟨c!"at " ++ (name ++ c!" (" ++ posText file line column ++ c!")"), by simp [printFrame, posText], ?_⟩
    have hstart : peek ((name ++ c!" (" ++ posText file line column ++ c!")") ++ tail) ≠ ' ' := by
      rw [List.append_assoc, List.append_assoc, List.append_assoc, peek_append hn1]
      cases name with
      | nil => exact absurd rfl hn1
      | cons c n => intro hc; exact hn2 (by rw [← hc]; simp)
    rw [start _ hstart]
    generalize hP : ind ++ c!"at " = P
    have e : ind ++ (c!"at " ++ (name ++ c!" (" ++ posText file line column ++ c!")")) ++ tail =
        P ++ (name ++ c!" (") ++ posText file line column ++ c!")" ++ tail := by rw [← hP]; simp
    rw [e]
    unfold parseAt
    have e2 : P ++ (name ++ c!" (") ++ posText file line column ++ c!")" ++ tail =
        P ++ ((name ++ c!" (" ++ posText file line column ++ c!")") ++ tail) := by simp
    have e3 : P ++ (name ++ c!" (") ++ posText file line column ++ c!")" ++ tail =
        (P ++ (name ++ c!" (") ++ posText file line column) ++ ')' :: tail := by simp
    have hnlb : '\n' ∉ name ++ c!" (" ++ posText file line column ++ c!")" := by
      have := posText_newline line column hnl
      simp [hn3, this]
    have hdrop : (P ++ (name ++ c!" (") ++ posText file line column ++ c!")" ++ tail).drop P.length =
        (name ++ c!" (" ++ posText file line column ++ c!")") ++ tail := by
      rw [e2]; exact drop_len rfl
    have lc : P.length + (name ++ c!" (" ++ posText file line column ++ c!")").length - 1 =
        (P ++ (name ++ c!" (") ++ posText file line column).length := by len
    have hbk : backSpaces (P ++ (name ++ c!" (") ++ posText file line column ++ c!")" ++ tail) P.length
        (P ++ (name ++ c!" (") ++ posText file line column).length = .ok (P ++ (name ++ c!" (") ++ posText file line column).length := by
      rw [e3]; exact backSpaces_stay _ ')' tail _ (by decide)
    have hrd : rd (P ++ (name ++ c!" (") ++ posText file line column ++ c!")" ++ tail)
        (P ++ (name ++ c!" (") ++ posText file line column).length = .ok ')' := by
      rw [e3]; exact rd_mid _ ')' tail rfl
    rw [hdrop, ht.nul _ hnlb, lc, hbk, Out.bind_ok, hrd, Out.bind_ok, if_pos rfl]
    have hfn : functionName (P ++ (name ++ c!" (") ++ posText file line column ++ c!")" ++ tail) P.length
        (P ++ (name ++ c!" (") ++ posText file line column).length =
        .ok (some (name, (P ++ (name ++ c!" (")).length, (P ++ (name ++ c!" (") ++ posText file line column).length.pred)) := by
      unfold functionName
      rw [hdrop]
      have e5 : (name ++ c!" (" ++ posText file line column ++ c!")") ++ tail = name ++ (c!" " ++ ('(' :: (posText file line column ++ c!")" ++ tail))) := by
        simp
      rw [e5, skipCspan_append (a := name) (fun c hc => by
        simp only [List.mem_cons, List.not_mem_nil, or_false]
        rintro (rfl | rfl)
        · exact hn2 hc
        · exact hn3 hc) (Or.inr (by simp)), Out.bind_ok]
      dsimp only
      rw [if_neg (by simp [hn1]), strndup, List.take_left, skipCspan_append (a := c!" ") (by decide) (Or.inr (by simp)), Out.bind_ok]
      dsimp only
      rw [if_neg (by simp)]
      simp
      omega
    rw [hfn, Out.bind_ok]
    dsimp only
    rw [finish_read (P ++ (name ++ c!" (")) file line column tail (some name) hl hc hne hnl c!")" (by decide) (by simp; decide) ht]

/-- C51: in particular the same frame is read back, if its file name is not below a home directory. -/
theorem C51_round_trip_partial (f : JsFrame) (file ind tail : Str) (h : Clean f file) (hi : ∀ c ∈ ind, c = ' ') (ht : LineEnd tail)
    (hh : ¬ ∃ user rest, '/' ∉ user ∧ file = c!"/home/" ++ user ++ '/' :: rest) :
    ∃ text, printFrame f = .ok text ∧ parseFrame (ind ++ text ++ tail) = .ok (some (f, tail)) := by
  obtain ⟨text, h1, h2⟩ := C51_read_back f file ind tail h hi ht
  refine ⟨text, h1, ?_⟩
  rw [h2, C31_keeps file hh, ← h.fileName]

example : ∃ text, printFrame ⟨some c!"a (b):7:x.js", 357, 29, some c!"Object.<anonymous>"⟩ = .ok text ∧
    parseFrame (c!"    " ++ text ++ c!"\n") = .ok (some (⟨some c!"a (b):7:x.js", 357, 29, some c!"Object.<anonymous>"⟩, c!"\n")) :=
  C51_round_trip_partial _ c!"a (b):7:x.js" c!"    " c!"\n"
    ⟨rfl, by decide, by decide, by decide, by decide, by decide, by rintro n ⟨⟩; exact ⟨by decide, by decide, by decide⟩⟩
    (by decide) (Or.inr rfl) (by rintro ⟨u, r, -, h⟩; exact absurd h (by simp))

/-- C51 does not hold for constructor calls: of `new Foo`, only `new` is read back. -/
theorem C51_not_new : ∃ f : JsFrame, ∃ text, printFrame f = .ok text ∧ f.functionName = some c!"new Foo" ∧
    parseFrame text = .ok (some ({ f with functionName := some c!"new" }, [])) :=
  ⟨⟨some c!"a.js", 1, 2, some c!"new Foo"⟩, c!"at new Foo (a.js:1:2)", by decide +kernel, rfl, by decide +kernel⟩

/-- C51 does not hold below home directories, where the user name is not kept. -/
theorem C51_not_home : ∃ f : JsFrame, ∃ text, printFrame f = .ok text ∧ f.fileName = some c!"/home/jane/a.js" ∧
    parseFrame text = .ok (some ({ f with fileName := some c!"/home/anonymized/a.js" }, [])) :=
  ⟨⟨some c!"/home/jane/a.js", 1, 2, none⟩, c!"at /home/jane/a.js:1:2", by decide +kernel, rfl, by decide +kernel⟩

/-! ## Stack traces -/

/-- A stack trace as printed by V8: the name and message of the exception, then one frame on each line. -/
def traceText (name message : Str) (frames : List Str) : Str :=
  name ++ c!": " ++ message ++ '\n' :: frames.flatMap fun f => c!"    " ++ f ++ c!"\n"

theorem framesLoop_read (fs : List (JsFrame × Str × Str)) (h : ∀ x ∈ fs, Clean x.1 x.2.1 ∧ printFrame x.1 = .ok x.2.2)
    (fuel : Nat) (acc : List JsFrame) (hf : (fs.flatMap fun x => c!"    " ++ x.2.2 ++ c!"\n").length < fuel) :
    framesLoop fuel (fs.flatMap fun x => c!"    " ++ x.2.2 ++ c!"\n") acc =
      .ok (some (acc ++ fs.map fun x => { x.1 with fileName := some (anonymizePath x.2.1) }, [])) := by
  induction fs generalizing fuel acc with
  | nil =>
    cases fuel with
    | zero => omega
    | succ n => rw [List.flatMap_nil, framesLoop, if_pos (show peek [] = '\x00' from rfl)]; simp
  | cons x fs ih =>
    obtain ⟨fuel, rfl⟩ : ∃ k, fuel = k + 1 := ⟨fuel - 1, by omega⟩
    obtain ⟨hc, hp⟩ := h x (by simp)
    rw [List.flatMap_cons] at hf ⊢
    generalize hr : fs.flatMap (fun x => c!"    " ++ x.2.2 ++ c!"\n") = rest at hf ⊢
    have ih := ih (fun y hy => h y (by simp [hy])) fuel (acc ++ [{ x.1 with fileName := some (anonymizePath x.2.1) }])
    rw [hr] at ih
    obtain ⟨text, h1, h2⟩ := C51_read_back x.1 x.2.1 c!"    " ('\n' :: rest) hc (by decide) (Or.inr rfl)
    have : text = x.2.2 := by rw [hp] at h1; cases h1; rfl
    subst this
    have e : c!"    " ++ x.2.2 ++ c!"\n" ++ rest = c!"    " ++ x.2.2 ++ '\n' :: rest := by simp
    rw [e] at hf ⊢
    rw [framesLoop, if_neg (by show ¬ ' ' = '\x00'; decide), h2, Out.bind_ok]
    dsimp only
    rw [skipChar_cons (by decide), Out.bind_ok]
    dsimp only
    rw [if_neg (by simp), ih (by simp only [List.length_append, List.length_cons] at hf; omega)]
    simp

/-- C69: a stack trace printed by V8 is read completely: the name of the exception and all frames, in order, with names, lines and
columns. The message is not kept. -/
theorem C69_read_partial (name message : Str) (fs : List (JsFrame × Str × Str)) (hn : name ≠ []) (hn1 : ':' ∉ name) (hn2 : '\n' ∉ name)
    (hm : '\n' ∉ message) (h : ∀ x ∈ fs, Clean x.1 x.2.1 ∧ printFrame x.1 = .ok x.2.2) :
    parseTrace (traceText name message (fs.map (·.2.2))) =
      .ok (some (⟨some name, fs.map fun x => { x.1 with fileName := some (anonymizePath x.2.1) }, 1⟩, [])) := by
  unfold parseTrace traceText
  have e : name ++ c!": " ++ message ++ '\n' :: (fs.map (·.2.2)).flatMap (fun f => c!"    " ++ f ++ c!"\n") =
      name ++ (c!": " ++ (message ++ '\n' :: fs.flatMap (fun x => c!"    " ++ x.2.2 ++ c!"\n"))) := by
    simp [List.flatMap_map]
  rw [e, parseCspan_append (fun c hc => by
    simp only [List.mem_cons, List.not_mem_nil, or_false]
    rintro (rfl | rfl)
    · exact hn1 hc
    · exact hn2 hc) (Or.inr (by simp)) hn, Out.bind_ok]
  dsimp only
  rw [if_neg (by simp), if_neg (by simp), skipString_append]
  dsimp only
  rw [if_neg (by decide)]
  have hnl := (C28_next_line [] message (fs.flatMap (fun x => c!"    " ++ x.2.2 ++ c!"\n")) hm).1
  rw [locOf_nil] at hnl
  rw [hnl, Out.bind_ok]
  dsimp only
  rw [if_neg (by decide), framesLoop_read fs h _ [] (by omega), Out.bind_ok]
  rfl

example : parseTrace c!"ReferenceError: f is not defined\n    at a (b.js:1:2)\n    at c.js:3:4\n" =
    .ok (some (⟨some c!"ReferenceError", [⟨some c!"b.js", 1, 2, some c!"a"⟩, ⟨some c!"c.js", 3, 4, none⟩], 1⟩, [])) := by
  decide +kernel

/-! ## The text is not left -/

theorem backSpaces_bound (inp : Str) (lo c : Nat) (hc : c ≤ inp.length) :
    ∃ r, backSpaces inp lo c = .ok r ∧ r ≤ c ∧ (lo ≤ c → lo ≤ r) ∧ (c < lo → r = c) ∧
      ∀ i, r < i → i ≤ c → peek (inp.drop i) = ' ' := by
  induction c with
  | zero => exact ⟨0, rfl, le_refl _, id, fun _ => rfl, fun i h1 h2 => by omega⟩
  | succ c ih =>
    rw [backSpaces]
    by_cases h : c + 1 > lo
    · rw [if_pos h, rd_ok hc]
      show ∃ r, (if peek (inp.drop (c + 1)) = ' ' then _ else _) = _ ∧ _
      by_cases hs : peek (inp.drop (c + 1)) = ' '
      · rw [if_pos hs]
        obtain ⟨r, h1, h2, h3, h4, h5⟩ := ih (by omega)
        refine ⟨r, h1, by omega, fun _ => h3 (by omega), fun _ => by omega, fun i hi hi2 => ?_⟩
        rcases Nat.lt_or_ge i (c + 1) with hlt | hge
        · exact h5 i hi (by omega)
        · have : i = c + 1 := by omega
          subst this; exact hs
      · rw [if_neg hs]
        exact ⟨c + 1, rfl, le_refl _, id, fun _ => rfl, fun i h1 h2 => by omega⟩
    · rw [if_neg h]
      exact ⟨c + 1, rfl, le_refl _, id, fun _ => rfl, fun i h1 h2 => by omega⟩

theorem backColon_bound (inp : Str) (lo c : Nat) (hc : c ≤ inp.length) :
    ∃ r, backColon inp lo c = .ok r ∧ ∀ t, r = some t → t ≤ c ∧ (lo ≤ c → lo ≤ t) := by
  induction c with
  | zero => exact ⟨some 0, rfl, fun t ht => by cases ht; exact ⟨le_refl _, id⟩⟩
  | succ c ih =>
    rw [backColon]
    have same : ∀ t, some (c + 1) = some t → t ≤ c + 1 ∧ (lo ≤ c + 1 → lo ≤ t) := fun t ht => by cases ht; exact ⟨le_refl _, id⟩
    by_cases h : c + 1 > lo
    · rw [if_pos h, rd_ok hc]
      show ∃ r, (if peek (inp.drop (c + 1)) ≠ ':' then _ else _) = _ ∧ _
      split
      · split
        · exact ⟨none, rfl, fun t ht => by cases ht⟩
        · obtain ⟨r, h1, h2⟩ := ih (by omega)
          refine ⟨r, h1, fun t ht => ?_⟩
          have := h2 t ht
          exact ⟨by omega, fun _ => this.2 (by omega)⟩
      · exact ⟨_, rfl, same⟩
    · rw [if_neg h]
      exact ⟨_, rfl, same⟩

theorem parseUint32_ok (s : Str) : ∃ r, parseUint32 s = .ok r := ⟨_, C25_uint32 s⟩

theorem position_ok (inp : Str) (lo cursor : Nat) (hc : cursor ≤ inp.length)
    (h : lo ≤ cursor ∨ (cursor + 1 = lo ∧ IsDec (peek (inp.drop lo)) = false)) : ∃ r, position inp lo cursor = .ok r := by
  unfold position
  rcases h with h | ⟨h, hd⟩
  · obtain ⟨r, h1, h2⟩ := backColon_bound inp lo cursor hc
    rw [h1, Out.bind_ok]
    cases r with
    | none => exact ⟨_, rfl⟩
    | some t =>
      have ht := h2 t rfl
      dsimp only
      split
      · exact ⟨_, rfl⟩
      · next hne =>
        have hlt : lo < t := by have := ht.2 h; omega
        obtain ⟨⟨n, v, s⟩, hp⟩ := parseUint32_ok (inp.drop (t + 1))
        rw [hp, Out.bind_ok]
        cases v with
        | none => exact ⟨_, rfl⟩
        | some v =>
          dsimp only
          obtain ⟨r, h3, h4⟩ := backColon_bound inp lo (t - 1) (by omega)
          rw [h3, Out.bind_ok]
          cases r with
          | none => exact ⟨_, rfl⟩
          | some t2 =>
            have ht2 := (h4 t2 rfl).2 (by omega)
            dsimp only
            split
            · exact ⟨_, rfl⟩
            · obtain ⟨⟨n2, v2, s2⟩, hp2⟩ := parseUint32_ok (inp.drop (t2 + 1))
              rw [hp2, Out.bind_ok]
              cases v2 with
              | none => exact ⟨_, rfl⟩
              | some v2 =>
                dsimp only
                rw [strndupTo, if_neg (by omega)]
                exact ⟨_, rfl⟩
  · have e : backColon inp lo cursor = .ok (some cursor) := by
      cases cursor with
      | zero => rfl
      | succ c => rw [backColon, if_neg (by omega)]
    rw [e, Out.bind_ok]
    dsimp only
    rw [if_neg (by omega), h, parseUint32_none hd]
    exact ⟨_, rfl⟩

theorem finish_ok (inp : Str) (name : Option Str) (lo cursor : Nat) (hc : cursor ≤ inp.length)
    (h : lo ≤ cursor ∨ (cursor + 1 = lo ∧ IsDec (peek (inp.drop lo)) = false)) : ∃ r, finish inp name lo cursor = .ok r := by
  obtain ⟨r, hr⟩ := position_ok inp lo cursor hc h
  unfold finish
  rw [hr, Out.bind_ok]
  cases r with
  | none => exact ⟨_, rfl⟩
  | some r =>
    obtain ⟨a, b, c⟩ := r
    dsimp only
    rw [skipCharCspan_eq, Out.bind_ok]
    exact ⟨_, rfl⟩

theorem functionName_ok (inp : Str) (lo cursor : Nat) :
    ∃ r, functionName inp lo cursor = .ok r ∧ ∀ n lo' cur', r = some (n, lo', cur') → cur' = cursor - 1 ∧
      ∃ a b, inp.drop lo = a ++ '(' :: b ∧ '\n' ∉ a ∧ a ≠ [] ∧ lo' = lo + a.length + 1 := by
  unfold functionName
  obtain ⟨a, b, hs, ha, hb, hk⟩ := span_split (inp.drop lo) c!" \n"
  rw [hk, Out.bind_ok]
  dsimp only
  split
  · exact ⟨none, rfl, fun _ _ _ h => by cases h⟩
  · next hn =>
    obtain ⟨a', b', hs', ha', hb', hk'⟩ := span_split b c!"(\n"
    rw [hk', Out.bind_ok]
    dsimp only
    split
    · exact ⟨none, rfl, fun _ _ _ h => by cases h⟩
    · next hn' =>
      refine ⟨_, rfl, fun n lo' cur' h => ?_⟩
      rw [Option.some.injEq, Prod.mk.injEq, Prod.mk.injEq] at h
      refine ⟨h.2.2.symm, a ++ a', b'.tail, ?_, ?_, ?_, ?_⟩
      · push Not at hn'
        cases b' with
        | nil => exact absurd hn'.2 (by decide)
        | cons c t =>
          have : c = '(' := hn'.2
          rw [hs, hs', this]; simp
      · intro hm
        rcases List.mem_append.1 hm with hm | hm
        · exact ha _ hm (by decide)
        · exact ha' _ hm (by decide)
      · push Not at hn
        intro h0
        have : a = [] := (List.append_eq_nil_iff.1 h0).1
        rw [this] at hn
        exact hn.1 rfl
      · rw [← h.2.1, List.length_append]; omega

theorem parseAt_ok (inp : Str) (lo : Nat) (h1 : 1 ≤ lo) (hlo : lo ≤ inp.length) : ∃ r, parseAt inp lo = .ok r := by
  unfold parseAt
  have hnl : strchrnulI '\n' (inp.drop lo) ≤ inp.length - lo := by
    unfold strchrnulI
    exact (takeWhile_length_le _).trans (by simp)
  generalize hk : strchrnulI '\n' (inp.drop lo) = k at hnl
  obtain ⟨c, hc, hc1, hc2, hc3, hc4⟩ := backSpaces_bound inp lo (lo + k - 1) (by omega)
  rw [hc, Out.bind_ok, rd_ok (by omega), Out.bind_ok]
  have hsplit : (∀ c ∈ (inp.drop lo).take k, c ≠ '\n') ∧ (peek (inp.drop (lo + k)) = '\n' ∨ peek (inp.drop (lo + k)) = '\x00') := by
    unfold strchrnulI at hk
    constructor
    · rw [← hk, take_takeWhile]
      intro c hc; simpa using List.mem_takeWhile_imp hc
    · rw [← List.drop_drop, ← hk, drop_takeWhile]
      cases h : (inp.drop lo).dropWhile (fun x => decide (x ≠ '\n')) with
      | nil => exact .inr rfl
      | cons c t =>
        refine .inl ?_
        have := List.head_dropWhile_not (l := inp.drop lo) (fun x => decide (x ≠ '\n')) (by rw [h]; simp)
        simp only [h] at this
        exact not_not.1 (of_decide_eq_false this)
  by_cases hp : peek (inp.drop c) = ')'
  · rw [if_pos hp]
    obtain ⟨r, hr, hr2⟩ := functionName_ok inp lo c
    rw [hr, Out.bind_ok]
    cases r with
    | none => exact ⟨_, rfl⟩
    | some r =>
      obtain ⟨n, lo', cur'⟩ := r
      obtain ⟨rfl, a, b, hab, hna, hane, rfl⟩ := hr2 n lo' cur' rfl
      dsimp only
      have hdrop : inp.drop (lo + a.length) = '(' :: b := by rw [← List.drop_drop, hab, List.drop_left]
      have hak : a.length < k := by
        rw [← hk, hab]
        unfold strchrnulI
        have : (a ++ '(' :: b).takeWhile (fun x => decide (x ≠ '\n')) = a ++ '(' :: b.takeWhile (fun x => decide (x ≠ '\n')) := by
          rw [List.takeWhile_append_of_pos (fun x hx => by simp; rintro rfl; exact hna hx)]
          simp
        rw [this]; simp
      have hge : lo + a.length < c := by
        by_contra hcon
        rcases Nat.lt_or_ge c (lo + a.length) with hlt | hge
        · have := hc4 (lo + a.length) hlt (by omega)
          rw [hdrop] at this
          exact absurd this (by simp)
        · have : c = lo + a.length := by omega
          rw [this, hdrop] at hp
          exact absurd hp (by simp)
      refine finish_ok inp _ _ _ (by omega) ?_
      rcases Nat.lt_or_ge (lo + a.length + 1) c with hlt | hge2
      · exact .inl (by omega)
      · refine .inr ⟨by omega, ?_⟩
        have : lo + a.length + 1 = c := by omega
        rw [this, hp]; rfl
  · rw [if_neg hp]
    refine finish_ok inp none lo c (by omega) ?_
    rcases Nat.eq_zero_or_pos k with h0 | h0
    · refine .inr ⟨by have := hc3 (by omega); omega, ?_⟩
      rw [h0, Nat.add_zero] at hsplit
      rcases hsplit.2 with h | h <;> rw [h] <;> rfl
    · exact .inl (hc2 (by omega))

/-- C56 for JavaScript frames: whatever the text is, reading it is well-defined. -/
theorem C56_js_frame (inp : Str) : ∃ r, parseFrame inp = .ok r := by
  unfold parseFrame
  rw [skipCharSpan_eq, Out.bind_ok]
  dsimp only
  set a := inp.takeWhile (fun c => c!" ".contains c)
  set b := inp.dropWhile (fun c => c!" ".contains c)
  have hab : inp = a ++ b := List.takeWhile_append_dropWhile.symm
  rcases skipString_cases b c!"at " with ⟨t, ht, hk⟩ | hk
  · rw [hk]
    dsimp only
    rw [if_neg (by decide), skipCharSpan_eq, Out.bind_ok]
    have hl : (t.takeWhile fun c => c!" ".contains c).length ≤ t.length := takeWhile_length_le _
    refine parseAt_ok inp _ (by len) ?_
    rw [hab, ht]
    generalize (t.takeWhile fun c => c!" ".contains c).length = m at hl
    len
  · rw [hk]
    exact ⟨none, rfl⟩

theorem finish_post (inp : Str) (name : Option Str) (lo cursor : Nat) :
    Post (finish inp name lo cursor) fun r => ∀ x, r = some x → x.2.length ≤ inp.length - lo := by
  unfold finish
  refine (Post.any _).bind fun a _ => ?_
  cases a with
  | none => exact .ok (by rintro x ⟨⟩)
  | some a =>
    refine (skipCharCspan_yields (inp.drop lo) _).post.bind fun b hb => .ok ?_
    rintro x ⟨⟩
    rw [List.length_drop] at hb
    exact hb

theorem functionName_post (inp : Str) (lo cursor : Nat) : Post (functionName inp lo cursor) fun r => ∀ x, r = some x → lo ≤ x.2.1 := by
  unfold functionName
  refine (Post.any _).bind fun a _ => Post.ite (fun _ => .ok (by rintro x ⟨⟩)) fun _ => (Post.any _).bind fun b _ =>
    Post.ite (fun _ => .ok (by rintro x ⟨⟩)) fun _ => .ok ?_
  rintro x ⟨⟩
  dsimp only
  omega

theorem parseAt_post (inp : Str) (lo : Nat) : Post (parseAt inp lo) fun r => ∀ x, r = some x → x.2.length ≤ inp.length - lo := by
  unfold parseAt
  refine (Post.any _).bind fun a _ => (Post.any _).bind fun b _ => Post.ite (fun _ => ?_) fun _ => finish_post inp none lo a
  refine (functionName_post inp lo a).bind fun r hr => ?_
  cases r with
  | none => exact .ok (by rintro x ⟨⟩)
  | some r =>
    obtain ⟨n, lo', c'⟩ := r
    have := hr _ rfl
    dsimp only at this
    exact (finish_post inp _ lo' c').mono fun y hy x hx => by have := hy x hx; omega

/-- Reading a frame makes the text shorter. -/
theorem parseFrame_yields (inp : Str) : Yields (parseFrame inp) fun r => ∀ x, r = some x → x.2.length < inp.length := by
  refine Fine.yields (C56_js_frame inp) ?_
  unfold parseFrame
  refine (skipCharSpan_yields inp _).post.bind fun a ha => ?_
  have h1 := skipString_len a.2 c!"at "
  dsimp only
  refine Post.ite (fun _ => .ok (by rintro x ⟨⟩)) fun h2 => (Post.any _).bind fun b _ => (parseAt_post inp _).mono fun r hr x hx => ?_
  have := hr x hx
  omega

theorem framesLoop_fine : ∀ (fuel : Nat) (s : Str) (acc : List JsFrame), s.length < fuel → Fine (framesLoop fuel s acc)
  | 0, s, acc, h => by omega
  | n + 1, s, acc, h => by
    rw [framesLoop]
    refine Fine.ite (fun _ => .ok _) fun _ => ?_
    obtain ⟨r, hr, hlt⟩ := parseFrame_yields s
    rw [hr, Out.bind_ok]
    cases r with
    | none => exact ⟨_, rfl⟩
    | some x =>
      have := hlt x rfl
      refine (skipChar_fine x.2 (by decide)).bind fun y hy => Fine.ite (fun _ => .ok _) fun _ => framesLoop_fine n _ _ ?_
      have := (skipChar_yields x.2 (c := '\n') (by decide)).post y hy
      omega

/-- C56 for JavaScript stack traces: whatever the text is, reading it is well-defined and comes to an end. -/
theorem C56_js_trace (inp : Str) : ∃ r, parseTrace inp = .ok r := by
  unfold parseTrace
  refine (parseCharCspan_fine inp _).bind fun a _ => Fine.ite (fun _ => .ok _) fun _ => Fine.ite (fun _ => .ok _) fun _ =>
    Fine.ite (fun _ => .ok _) fun _ => (skipToNextLine_fine _ _).bind fun b _ => Fine.ite (fun _ => .ok _) fun _ =>
    (framesLoop_fine _ _ _ (by omega)).bind fun r _ => ?_
  cases r <;> exact ⟨_, rfl⟩

end Satyr.Text.Js
