import Verif.CStr.Parse
import Verif.Frames.Traces
/-!
# Model of reading and printing JavaScript frames and stack traces (lib/js_frame.c, lib/js_stacktrace.c)

Locations are not modelled. `none` is the result `NULL`. Running out of fuel is made an undefined outcome, so that
a proof that the outcome is defined also shows that the loops end.
-/
namespace Satyr.Text.Js
open Satyr.CStr Satyr.Frames

/-- `while (cursor > local_input && *cursor == ' ') --cursor;` (lib/js_frame.c:224-225); `lo` is the position of `local_input`. -/
def backSpaces (inp : Str) (lo : Nat) : Nat → Out Nat
  | 0 => .ok 0
  | c + 1 =>
    if c + 1 > lo then (rd inp (c + 1)).bind fun ch => if ch = ' ' then backSpaces inp lo c else .ok (c + 1)
    else .ok (c + 1)

/-- The loops that go back to a colon over digits (lib/js_frame.c:282-291, 314-323); `none` is the failure at another character. -/
def backColon (inp : Str) (lo : Nat) : Nat → Out (Option Nat)
  | 0 => .ok (some 0)
  | t + 1 =>
    if t + 1 > lo then (rd inp (t + 1)).bind fun ch =>
      if ch ≠ ':' then (if IsDec ch = false then .ok none else backColon inp lo t) else .ok (some (t + 1))
    else .ok (some (t + 1))

/-- The function name in front of a position in parentheses (lib/js_frame.c:234-271): the name and the new positions of
`local_input` and `cursor`. -/
def functionName (inp : Str) (lo cursor : Nat) : Out (Option (Str × Nat × Nat)) := do
  let (columns, s) ← skipCharCspan (inp.drop lo) c!" \n"
  if columns = 0 ∨ peek s ≠ ' ' then .ok none else
  let name := strndup (inp.drop lo) columns
  let (columns', s) ← skipCharCspan s c!"(\n"
  if columns' = 0 ∨ peek s ≠ '(' then .ok none else
  .ok (some (name, lo + columns + columns' + 1, cursor - 1))

/-- `g_strndup(s, end - start)`; a negative length is not one the allocation can satisfy. -/
def strndupTo (inp : Str) (start stop : Nat) : Out Str :=
  if stop < start then .abort else .ok (strndup (inp.drop start) (stop - start))

/-- The position `file:line:column` that ends at the cursor (lib/js_frame.c:281-346): name, line and column. -/
def position (inp : Str) (lo cursor : Nat) : Out (Option (Str × Nat × Nat)) := do
  match ← backColon inp lo cursor with
  | none => .ok none
  | some token =>
    if token = lo then .ok none else
    match ← parseUint32 (inp.drop (token + 1)) with
    | (_, none, _) => .ok none
    | (_, some column, _) =>
      match ← backColon inp lo (token - 1) with
      | none => .ok none
      | some token =>
        if token = lo then .ok none else
        match ← parseUint32 (inp.drop (token + 1)) with
        | (_, none, _) => .ok none
        | (_, some line, _) =>
          let file ← strndupTo inp lo token
          .ok (some (anonymizePath file, line, column))

/-- The end of `sr_js_frame_parse_v8` (lib/js_frame.c:281-351). -/
def finish (inp : Str) (name : Option Str) (lo cursor : Nat) : Out (Option (JsFrame × Str)) := do
  match ← position inp lo cursor with
  | none => .ok none
  | some (file, line, column) =>
    let (_, rest) ← skipCharCspan (inp.drop lo) c!"\n"
    .ok (some (⟨some file, line, column, name⟩, rest))

/-- `sr_js_frame_parse_v8` (lib/js_frame.c:186-356), from the first character after the indentation on (lib/js_frame.c:217-351). -/
def parseAt (inp : Str) (lo : Nat) : Out (Option (JsFrame × Str)) := do
  let cursor ← backSpaces inp lo (lo + strchrnulI '\n' (inp.drop lo) - 1)
  let ch ← rd inp cursor
  if ch = ')' then
    match ← functionName inp lo cursor with
    | none => .ok none
    | some (name, lo, cursor) => finish inp (some name) lo cursor
  else finish inp none lo cursor

/-- `sr_js_frame_parse_v8` (lib/js_frame.c:186-356) and `sr_js_frame_parse` (lib/js_frame.c:358-371). -/
def parseFrame (inp : Str) : Out (Option (JsFrame × Str)) := do
  let (n1, s) ← skipCharSpan inp c!" "
  let (n2, s) := skipString s c!"at "
  if n2 = 0 then .ok none else
  let (n3, _) ← skipCharSpan s c!" "
  parseAt inp (n1 + n2 + n3)

/-- `sr_js_frame_append_to_str` (lib/js_frame.c:464-479); `%s` of a null pointer is undefined. -/
def printFrame (f : JsFrame) : Out Str :=
  match f.fileName with
  | none => .ub
  | some file =>
    let pos := file ++ ':' :: natDec f.fileLine ++ ':' :: natDec f.lineColumn
    .ok (c!"at " ++ match f.functionName with
      | none => pos
      | some name => name ++ c!" (" ++ pos ++ c!")")

/-- The loop over the frames (lib/js_stacktrace.c:182-206); every frame is at least four characters long, so the fuel
`length + 1` suffices. -/
def framesLoop : Nat → Str → List JsFrame → Out (Option (List JsFrame × Str))
  | 0, _, _ => .ub
  | fuel + 1, s, acc =>
    if peek s = '\x00' then .ok (some (acc, s)) else do
    match ← parseFrame s with
    | none => .ok none
    | some (f, s) =>
      let (newline, s) ← skipChar s '\n'
      if newline = false ∧ peek s ≠ '\x00' then .ok none else framesLoop fuel s (acc ++ [f])

/-- `sr_js_stacktrace_parse_v8` (lib/js_stacktrace.c:133-213) and `sr_js_stacktrace_parse` (lib/js_stacktrace.c:215-237): the
engine is V8 (1), the runtime is not known (0). -/
def parseTrace (inp : Str) : Out (Option (JsTrace × Str)) := do
  let (name, s) ← parseCharCspan inp c!":\n"
  if peek s ≠ ':' then .ok none else
  if name = none then .ok none else
  let (n, s) := skipString s c!": "
  if n = 0 then .ok none else
  let (found, s, _) ← skipToNextLine s Loc.init
  if found = false then .ok none else
  match ← framesLoop (s.length + 1) s [] with
  | none => .ok none
  | some (frames, s) => .ok (some (⟨name, frames, (0 <<< 4) ||| 1⟩, s))

end Satyr.Text.Js
