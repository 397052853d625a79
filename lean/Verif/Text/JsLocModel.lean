import Verif.Text.JsModel
import Verif.Text.LocModel
/-!
# Model of the locations kept while JavaScript stack traces are read (lib/js_frame.c, lib/js_stacktrace.c)

The functions of `JsModel` again, with the location that the C functions update. The location is returned for failures, too.
-/
namespace Satyr.Text.Js
open Satyr.CStr Satyr.Frames

/-- The loops that go back to a colon over digits (lib/js_frame.c:282-291, 314-323); `inl` is the position of another character. -/
def backColonL (inp : Str) (lo : Nat) : Nat → Out (Nat ⊕ Nat)
  | 0 => .ok (.inr 0)
  | t + 1 =>
    if t + 1 > lo then (rd inp (t + 1)).bind fun ch =>
      if ch ≠ ':' then (if IsDec ch = false then .ok (.inl (t + 1)) else backColonL inp lo t) else .ok (.inr (t + 1))
    else .ok (.inr (t + 1))

/-- The function name in front of a position in parentheses (lib/js_frame.c:234-271). -/
def functionNameL (inp : Str) (lo cursor : Nat) (l : Loc) : Out (Option (Str × Nat × Nat) × Loc) := do
  let (columns, s) ← skipCharCspan (inp.drop lo) c!" \n"
  if columns = 0 ∨ peek s ≠ ' ' then .ok (none, l) else
  let name := strndup (inp.drop lo) columns
  let l := l.add 0 columns
  let (columns', s) ← skipCharCspan s c!"(\n"
  if columns' = 0 ∨ peek s ≠ '(' then .ok (none, l) else
  .ok (some (name, lo + columns + columns' + 1, cursor - 1), l.add 0 (columns' + 1))

/-- The position `file:line:column` that ends at the cursor (lib/js_frame.c:281-346). -/
def positionL (inp : Str) (lo cursor : Nat) (l : Loc) : Out (Option (Str × Nat × Nat) × Loc) := do
  match ← backColonL inp lo cursor with
  | .inl t => .ok (none, l.add 0 ((t : Int) - lo + 1))
  | .inr token =>
    if token = lo then .ok (none, l) else
    match ← parseUint32 (inp.drop (token + 1)) with
    | (_, none, _) => .ok (none, l.add 0 ((token : Int) + 1 - lo))
    | (_, some column, _) =>
      match ← backColonL inp lo (token - 1) with
      | .inl t => .ok (none, l.add 0 ((t : Int) - lo + 1))
      | .inr token =>
        if token = lo then .ok (none, l) else
        match ← parseUint32 (inp.drop (token + 1)) with
        | (_, none, _) => .ok (none, l.add 0 ((token : Int) + 1 - lo))
        | (_, some line, _) =>
          let file ← strndupTo inp lo token
          .ok (some (anonymizePath file, line, column), l)

/-- The end of `sr_js_frame_parse_v8` (lib/js_frame.c:281-356). -/
def finishL (inp : Str) (name : Option Str) (lo cursor : Nat) (l : Loc) : Out (Option (JsFrame × Str) × Loc) := do
  match ← positionL inp lo cursor l with
  | (none, l) => .ok (none, l)
  | (some (file, line, column), l) =>
    let (n, rest) ← skipCharCspan (inp.drop lo) c!"\n"
    .ok (some (⟨some file, line, column, name⟩, rest), ⟨l.line, l.column + n⟩)

/-- `sr_js_frame_parse_v8` from the first character after the indentation on (lib/js_frame.c:212-356). -/
def parseAtL (inp : Str) (lo : Nat) (l : Loc) : Out (Option (JsFrame × Str) × Loc) := do
  let cursor ← backSpaces inp lo (lo + strchrnulI '\n' (inp.drop lo) - 1)
  let ch ← rd inp cursor
  if ch = ')' then
    match ← functionNameL inp lo cursor l with
    | (none, l) => .ok (none, l)
    | (some (name, lo, cursor), l) => finishL inp (some name) lo cursor l
  else finishL inp none lo cursor l

/-- `sr_js_frame_parse_v8` (lib/js_frame.c:186-356). -/
def parseFrameL (inp : Str) (l : Loc) : Out (Option (JsFrame × Str) × Loc) := do
  let (n1, s) ← skipCharSpan inp c!" "
  let l := l.add 0 n1
  let (n2, s) := skipString s c!"at "
  if n2 = 0 then .ok (none, l) else
  let (n3, _) ← skipCharSpan s c!" "
  parseAtL inp (n1 + n2 + n3) (l.add 0 (n2 + n3 : Nat))

/-- The loop over the frames (lib/js_stacktrace.c:182-206). -/
def framesLoopL : Nat → Str → Loc → List JsFrame → Out (Option (List JsFrame × Str) × Loc)
  | 0, _, _, _ => .ub
  | fuel + 1, s, l, acc =>
    if peek s = '\x00' then .ok (some (acc, s), l) else do
    match ← parseFrameL s l with
    | (none, l) => .ok (none, l)
    | (some (f, s), l) =>
      let (newline, s) ← skipChar s '\n'
      if newline = false ∧ peek s ≠ '\x00' then .ok (none, l) else framesLoopL fuel s ⟨l.line + 1, 0⟩ (acc ++ [f])

/-- `sr_js_stacktrace_parse_v8` (lib/js_stacktrace.c:133-213). `columns` is what `sr_parse_char_cspan` returns: a truth value
(lib/utils.c:337-346), not the length of the name. -/
def parseTraceL (inp : Str) (l : Loc) : Out (Option (JsTrace × Str) × Loc) := do
  let (name, s) ← parseCharCspan inp c!":\n"
  if peek s ≠ ':' then .ok (none, l) else
  if name = none then .ok (none, l) else
  let l := l.add 0 1
  let (n, s) := skipString s c!": "
  if n = 0 then .ok (none, l) else
  let (found, s, l) ← skipToNextLine s l
  if found = false then .ok (none, l) else
  match ← framesLoopL (s.length + 1) s l [] with
  | (none, l) => .ok (none, l)
  | (some (frames, s), l) => .ok (some (⟨name, frames, (0 <<< 4) ||| 1⟩, s), l)

/-- `sr_stacktrace_parse` for JavaScript: `stacktrace_parse_wrapper` (lib/generic_stacktrace.c:78-93) with `sr_js_stacktrace_parse`
(lib/js_stacktrace.c:215-237), which replaces the message. -/
def parseText (inp : Str) : Out (JsTrace ⊕ Str) := do
  match ← parseTraceL inp Loc.init with
  | (some (t, _), _) => .ok (.inl t)
  | (none, l) => .ok (.inr (l.text (some c!"The stacktrace does not match any JavaScript dialect")))

end Satyr.Text.Js
