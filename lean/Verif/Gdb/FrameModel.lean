import Verif.Gdb.FunsModel
import Verif.CStr.Parse
/-!
# Model of the reading of gdb frames (lib/gdb_frame.c:265-1177)

The buffers into which the C functions copy what they accept are the first components of the results; a position in the
text is the rest of the text. Locations are not modelled. A loop that does not end within its fuel is undefined.
-/
namespace Satyr.Gdb
open Satyr.CStr Satyr.Normalize Satyr.Frames

/-- `SR_alnum` (include/utils.h:41-46). -/
def alnum : Str := c!"abcdefghijklmnopqrstuvwxyzABCDEFGHIJKLMNOPQRSTUVWXYZ0123456789"

/-- `SR_space` (include/utils.h:44). -/
def srSpace : Str := c!" \t\r\n\x0b\x0c"

/-- `FUNCTION_NAME_CHARS` (lib/gdb_frame.c:417). -/
def nameChars : Str := alnum ++ c!"@.:=!*+-[]~&/%^|,_"

/-- The texts tried by `sr_gdb_frame_parseadd_operator` in their order (lib/gdb_frame.c:391-411). -/
def operators : List Str :=
  [c!">>=", c!">>", c!">=", c!">", c!"<<=", c!"<<", c!"<=", c!"<", c!"->*", c!"->", c!"-", c!"==", c!"=", c!"&&", c!"&=", c!"&",
   c!"||", c!"|=", c!"|", c!"++", c!"+=", c!"+", c!"--", c!"-=", c!"-", c!"/=", c!"/", c!"*=", c!"*", c!"%=", c!"%", c!"!=", c!"!",
   c!"~", c!"()", c!"[]", c!",", c!"^=", c!"^", c!" new[]", c!" new", c!" delete[]", c!" delete"]

/-- The calls of `OP` (lib/gdb_frame.c:381-411): what is appended, and the rest. -/
def firstOp (s : Str) : List Str → Option (Str × Str)
  | [] => none
  | x :: xs => if 0 < (skipString s x).1 then some (c!"operator" ++ x, (skipString s x).2) else firstOp s xs

/-- `sr_gdb_frame_parseadd_operator` (lib/gdb_frame.c:374-415). -/
def parseOperator (s : Str) : Option (Str × Str) :=
  if (skipString s c!"operator").1 = 0 then none else firstOp (skipString s c!"operator").2 operators

/-- The space after an operator (lib/gdb_frame.c:430-442): what is appended, and the rest. -/
def afterOperator (s : Str) : Out (Str × Str) := do
  let a ← skipChar s ' '
  if a.1 = false then .ok ([], a.2) else do
  let b ← skipChar a.2 '('
  if b.1 then .ok ([], s) else .ok ([' '], b.2)

/-- An operator at this position, if there is one (lib/gdb_frame.c:428-443). -/
def chunkOperator (s : Str) : Out (Str × Str) :=
  match parseOperator s with
  | none => .ok ([], s)
  | some (x, t) => do
    let r ← afterOperator t
    .ok (x ++ r.1, r.2)

/-- The loop of `sr_gdb_frame_parse_function_name_chunk` (lib/gdb_frame.c:426-453). After an operator the text may have
ended; `strchr` finds the terminator in every set, so the step then leaves the text. -/
def chunkLoop (spaceAllowed : Bool) : Nat → Str → Out (Str × Str)
  | 0, _ => .ub
  | fuel + 1, s =>
    if peek s = '\x00' then .ok ([], s) else do
    let r ← chunkOperator s
    if strchrHas nameChars (peek r.2) = false ∧ (spaceAllowed = false ∨ strchrHas c!" " (peek r.2) = false) then .ok r
    else do
      let t ← advance r.2
      let q ← chunkLoop spaceAllowed fuel t
      .ok (r.1 ++ peek r.2 :: q.1, q.2)

/-- `sr_gdb_frame_parse_function_name_chunk` (lib/gdb_frame.c:419-465). -/
def chunk (spaceAllowed : Bool) (s : Str) : Out (Option (Str × Str)) := do
  let r ← chunkLoop spaceAllowed (s.length + 1) s
  .ok (if r.1 = [] then none else some r)

/-- The loop of `sr_gdb_frame_parse_function_name_template_args` (lib/gdb_frame.c:492-502). -/
def templateArgsLoop : Nat → Str → Str × Str
  | _, [] => ([], [])
  | depth, c :: s =>
    if c = '[' then (c :: (templateArgsLoop (depth + 1) s).1, (templateArgsLoop (depth + 1) s).2)
    else if c = ']' then
      if depth - 1 = 0 then ([], c :: s)
      else (c :: (templateArgsLoop (depth - 1) s).1, (templateArgsLoop (depth - 1) s).2)
    else (c :: (templateArgsLoop depth s).1, (templateArgsLoop depth s).2)

/-- `sr_gdb_frame_parse_function_name_template_args` (lib/gdb_frame.c:481-514). -/
def templateArgs (s : Str) : Out (Option (Str × Str)) :=
  if (skipString s c!" [with ").1 = 0 then .ok none else do
  let r := templateArgsLoop 1 (skipString s c!" [with ").2
  let b ← skipChar r.2 ']'
  .ok (if b.1 then some (c!" [with " ++ r.1 ++ [']'], b.2) else none)

/-- `x || y` for parsers: the second is called if the first has read nothing. -/
def orElse {α : Type} (x : Out (Option α)) (y : Out (Option α)) : Out (Option α) := do
  let r ← x
  match r with
  | some a => .ok (some a)
  | none => y

/-- The frame of `sr_gdb_frame_parse_function_name_braces` and `sr_gdb_frame_parse_function_name_template`
(lib/gdb_frame.c:516-550, 552-596) around their loops. -/
def bracket (left right : Char) (inner : Str → Out (Str × Str)) (s : Str) : Out (Option (Str × Str)) := do
  let a ← skipChar s left
  if a.1 = false then .ok none else do
  let r ← inner a.2
  let b ← skipChar r.2 right
  .ok (if b.1 then some (left :: (r.1 ++ [right]), b.2) else none)

/-- Repeat a parser and concatenate what it reads, as the loops of this file do. -/
def rep (p : Str → Out (Option (Str × Str))) (again : Str → Out (Str × Str)) (s : Str) : Out (Str × Str) := do
  let r ← p s
  match r with
  | none => .ok ([], s)
  | some (x, t) => do
    let q ← again t
    .ok (x ++ q.1, q.2)

/-- The loops of `sr_gdb_frame_parse_function_name_braces` (lib/gdb_frame.c:525-539) and, with `template`,
`sr_gdb_frame_parse_function_name_template` (lib/gdb_frame.c:561-585), which call these functions again. -/
def inner : Nat → Bool → Str → Out (Str × Str)
  | 0, _, _ => .ub
  | fuel + 1, template, s =>
    rep (fun s => orElse (if template then templateArgs s else .ok none) <| orElse (chunk true s) <|
      orElse (bracket '(' ')' (inner fuel false) s) (bracket '<' '>' (inner fuel true) s)) (inner fuel template) s

/-- `sr_gdb_frame_parse_function_name_braces` (lib/gdb_frame.c:516-550). -/
def braces (s : Str) : Out (Option (Str × Str)) := bracket '(' ')' (inner (s.length + 1) false) s

/-- `sr_gdb_frame_parse_function_name_template` (lib/gdb_frame.c:552-596). -/
def template (s : Str) : Out (Option (Str × Str)) := bracket '<' '>' (inner (s.length + 1) true) s

/-- The loops over the parts of a name in `sr_gdb_frame_parse_function_name` (lib/gdb_frame.c:656-683, 731-755). -/
def nameParts : Nat → Str → Out (Str × Str)
  | 0, _ => .ub
  | fuel + 1, s => rep (fun s => orElse (chunk false s) (orElse (braces s) (template s))) (nameParts fuel) s

/-- The characters that can begin a name (lib/gdb_frame.c:627). -/
def firstChars : Str := c!"~*._" ++ alnum

/-- The beginning of a name (lib/gdb_frame.c:619-653). -/
def nameStart (s : Str) : Out (Option (Str × Str)) := do
  let p ← parseCharLimited s firstChars
  match p.1 with
  | some c => .ok (some (if c = 'o' then ([], s) else ([c], p.2)))
  | none => braces s

/-- The suffix ` const` of the first part (lib/gdb_frame.c:695-714): what is appended, the space before the current position,
and the rest. -/
def constSuffix (space : Char) (s : Str) : Out (Option (Str × Char × Str)) :=
  if (skipString s c!"const").1 = 0 then .ok (some ([], space, s)) else do
  let p ← parseCharLimited (skipString s c!"const").2 srSpace
  match p.1 with
  | none => .ok none
  | some c => .ok (some (space :: c!"const", c, p.2))

/-- The second part (lib/gdb_frame.c:712-761): its text if it is there, the space before the current position, and the
rest. -/
def secondPart (space : Char) (s : Str) : Out (Option (Option Str × Char × Str)) := do
  let r ← chunk false s
  match r with
  | none => .ok (some (none, space, s))
  | some (x, t) => do
    let q ← nameParts (t.length + 1) t
    let p ← parseCharLimited q.2 srSpace
    match p.1 with
    | none => .ok none
    | some c => .ok (some (some (x ++ q.1), c, p.2))

/-- The suffix ` const` of the last part and the step back to the space (lib/gdb_frame.c:768-790): what is appended, and
the rest. -/
def lastConst (space : Char) (s : Str) : Out (Option (Str × Str)) :=
  if (skipString s c!"const").1 = 0 then .ok (some ([], space :: s)) else do
  let b ← skipCharLimited (skipString s c!"const").2 srSpace
  .ok (if b.1 then some (space :: c!"const", (skipString s c!"const").2) else none)

/-- A name and a type as they are returned by `sr_gdb_frame_parse_function_name` (lib/gdb_frame.c:788-797). -/
def nameAndType (buf0 : Str) (buf1 : Option Str) (suffix : Str) : Str × Option Str :=
  match buf1 with
  | some b => (b ++ suffix, some buf0)
  | none => (buf0 ++ suffix, none)

/-- The parts of `sr_gdb_frame_parse_function_name` after the first space (lib/gdb_frame.c:693-799). -/
def afterSpace (buf0 : Str) (space : Char) (s : Str) : Out (Option ((Str × Option Str) × Str)) := do
  let k ← constSuffix space s
  match k with
  | none => .ok none
  | some (x, space, s) => do
    let r ← secondPart space s
    match r with
    | none => .ok none
    | some (buf1, space, s) => do
      let l ← lastConst space s
      match l with
      | none => .ok none
      | some (suffix, s) => .ok (some (nameAndType (buf0 ++ x) buf1 suffix, s))

/-- `sr_gdb_frame_parse_function_name` (lib/gdb_frame.c:598-800): name, type and the rest. -/
def functionName (s : Str) : Out (Option ((Str × Option Str) × Str)) :=
  match parseString s c!"??" with
  | (some x, t) => .ok (some ((x, none), t))
  | (none, _) => do
    let a ← nameStart s
    match a with
    | none => .ok none
    | some (x, t) => do
      let q ← nameParts (t.length + 1) t
      let p ← parseCharLimited q.2 srSpace
      match p.1 with
      | none => .ok none
      | some c => afterSpace (x ++ q.1) c p.2

/-- One step of the loop of `sr_gdb_frame_skip_function_args` (lib/gdb_frame.c:830-852): the new depth and flags, `none` for
the `break`. -/
def argStep (c : Char) (depth : Nat) (string escape : Bool) : Option (Nat × Bool × Bool) :=
  if string then
    if escape then some (depth, string, false)
    else if c = '\\' then some (depth, string, true)
    else if c = '"' then some (depth, false, escape)
    else some (depth, string, escape)
  else if c = '"' then some (depth, true, escape)
  else if c = '(' then some (depth + 1, string, escape)
  else if c = ')' then (if depth > 0 then some (depth - 1, string, escape) else none)
  else some (depth, string, escape)

/-- The loop of `sr_gdb_frame_skip_function_args` (lib/gdb_frame.c:814-856). The test comes after the step, so an empty text
is left. -/
def argsLoop : Nat → Nat → Bool → Bool → Str → Out (Nat × Bool × Bool × Str)
  | 0, _, _, _, _ => .ub
  | fuel + 1, depth, string, escape, s =>
    let cut := !escape && startsWith s c!"(truncated)"
    match argStep (peek s) (if cut then 0 else depth) (if cut then false else string) escape with
    | none => .ok (if cut then 0 else depth, if cut then false else string, escape, s)
    | some (d, st, e) => do
      let t ← advance s
      if peek t = '\x00' then .ok (d, st, e, t) else argsLoop fuel d st e t

/-- `sr_gdb_frame_skip_function_args` (lib/gdb_frame.c:802-873): the rest. -/
def skipArgs (s : Str) : Out (Option Str) := do
  let a ← skipChar s '('
  if a.1 = false then .ok none else do
  let r ← argsLoop (a.2.length + 1) 0 false false a.2
  if r.1 ≠ 0 ∨ r.2.1 ∨ r.2.2.1 then .ok none else do
  let b ← skipChar r.2.2.2 ')'
  .ok (if b.1 then some b.2 else none)

/-- `sr_gdb_frame_parse_function_call` (lib/gdb_frame.c:875-920): name, type and the rest. -/
def functionCall (s : Str) : Out (Option ((Str × Option Str) × Str)) := do
  let n ← functionName s
  match n with
  | none => .ok none
  | some (nt, s) => do
    let w ← skipCharSpan s c!" \n"
    if w.1 = 0 then .ok none else do
    let r ← skipArgs w.2
    .ok (r.map fun t => (nt, t))

/-- A word followed by at least one space. -/
def wordSpace (word : Str) (s : Str) : Out (Option Str) :=
  if (skipString s word).1 = 0 then .ok none else do
  let a ← skipCharSequence (skipString s word).2 ' '
  .ok (if a.1 = 0 then none else some a.2)

/-- The optional `vtable for` (lib/gdb_frame.c:966-994). -/
def vtableFor (s : Str) : Out (Option Str) :=
  if (skipString s c!"vtable").1 = 0 then .ok (some s) else do
  let a ← wordSpace c!"vtable" s
  match a with
  | none => .ok none
  | some s => wordSpace c!"for" s

/-- What follows the address (lib/gdb_frame.c:939-994). -/
def afterAddress (s : Str) : Out (Option Str) := do
  let a ← skipCharSequence s ' '
  if a.1 = 0 then .ok none else do
  let b ← wordSpace c!"in" a.2
  match b with
  | none => .ok none
  | some s => vtableFor s

/-- `sr_gdb_frame_parse_address_in_function` (lib/gdb_frame.c:922-1009): the stored address, and name, type and the rest. -/
def addressInFunction (s : Str) : Out (Nat × Option ((Str × Option Str) × Str)) := do
  let a ← parseHex0xUint64 s
  if a.1 = 0 then do
    let r ← functionCall s
    .ok (2 ^ 64 - 1, r)
  else do
    let b ← afterAddress a.2.2
    match b with
    | none => .ok (a.2.1.getD 0, none)
    | some s => do
      let r ← functionCall s
      .ok (a.2.1.getD 0, r)

/-- The file name is kept unless it looks like a shared object (lib/gdb_frame.c:1052-1062). -/
def sourceName (name : Str) : Option Str :=
  match strstrI c!"/lib" name with
  | none => some name
  | some i =>
    if strstrHas (name.drop i) c!".so." = true ∨ (name.drop i).drop ((name.drop i).length - 3) = c!".so" then none else some name

/-- The characters of file names (lib/gdb_frame.c:1042). -/
def fileChars : Str := alnum ++ c!"_/\\+.-"

/-- The line number (lib/gdb_frame.c:1066-1079): `none` is the failure. -/
def fileLine (s : Str) : Out (Option (Nat × Str)) := do
  let a ← skipChar s ':'
  if a.1 = false then .ok (some (2 ^ 32 - 1, s)) else do
  let n ← parseUint32 a.2
  .ok (if n.1 = 0 then none else some (n.2.1.getD 0, n.2.2))

/-- The keyword before the file name and the spaces after it (lib/gdb_frame.c:1026-1049). -/
def fileKeyword (s : Str) : Out (Option Str) :=
  if (skipString s c!"at").1 = 0 then wordSpace c!"from" s else wordSpace c!"at" s

/-- `sr_gdb_frame_parse_file_location` (lib/gdb_frame.c:1011-1084): file, line and the rest. -/
def fileLocation (s : Str) : Out (Option (Option Str × Nat × Str)) := do
  let w ← skipCharSpan s c!" \n"
  if w.1 = 0 then .ok none else do
  let k ← fileKeyword w.2
  match k with
  | none => .ok none
  | some s => do
    let f ← parseCharSpan s fileChars
    match f.1 with
    | none => .ok none
    | some name => do
      let l ← fileLine f.2
      match l with
      | none => .ok none
      | some (line, s) => .ok (some (sourceName name, line, s))

/-- `sr_gdb_frame_parse_frame_start` (lib/gdb_frame.c:348-372): number and the rest. -/
def frameStart (s : Str) : Out (Option (Nat × Str)) := do
  let a ← skipChar s '#'
  if a.1 = false then .ok none else do
  let n ← parseUint32 a.2
  if n.1 = 0 then .ok none else do
  let w ← skipCharSequence n.2.2 ' '
  .ok (if w.1 = 0 then none else some (n.2.1.getD 0, w.2))

/-- A new frame with a number, an address and a function. -/
def callFrame (number address : Nat) (nt : Str × Option Str) : GdbFrame :=
  { newFrame with number, address, functionName := some nt.1, functionType := nt.2 }

/-- A frame with a function and a source location. -/
def locatedFrame (number address : Nat) (nt : Str × Option Str) (file : Option Str) (line : Nat) : GdbFrame :=
  { callFrame number address nt with sourceFile := file, sourceLine := line }

/-- `sr_gdb_frame_parse_header` after the optional call with an address (lib/gdb_frame.c:1134-1172). -/
def headerWithoutAddress (number address : Nat) (s : Str) : Out (Option (GdbFrame × Str)) := do
  let c ← functionCall s
  match c with
  | some (nt, s) => do
    let l ← fileLocation s
    match l with
    | none => .ok none
    | some (file, line, s) => .ok (some (locatedFrame number address nt file line, s))
  | none =>
    .ok (if 0 < (skipString s c!"<signal handler called>").1
      then some ({ newFrame with number, address, signalHandlerCalled := true }, (skipString s c!"<signal handler called>").2)
      else none)

/-- `sr_gdb_frame_parse_header` (lib/gdb_frame.c:1086-1177). -/
def parseHeader (s : Str) : Out (Option (GdbFrame × Str)) := do
  let n ← frameStart s
  match n with
  | none => .ok none
  | some (number, s) => do
    let a ← addressInFunction s
    match a.2 with
    | some (nt, s) => do
      let l ← fileLocation s
      match l with
      | none => .ok (some (callFrame number a.1 nt, s))
      | some (file, line, s) => .ok (some (locatedFrame number a.1 nt file line, s))
    | none => headerWithoutAddress number a.1 s

/-- `findfirstabnul` (lib/gdb_frame.c:301-320) for `"\n#"` and `"\nThread"`. -/
def findNext : Str → Str
  | [] => []
  | c :: s => if startsWith (c :: s) c!"\n#" ∨ startsWith (c :: s) c!"\nThread" then c :: s else findNext s

/-- `sr_gdb_frame_parse` (lib/gdb_frame.c:322-346). -/
def parseFrame (s : Str) : Out (Option (GdbFrame × Str)) := do
  let h ← parseHeader s
  match h with
  | none => .ok none
  | some (f, _) => do
    let t := findNext s
    if peek t = '\x00' then .ok (some (f, t)) else do
    let t ← advance t
    .ok (some (f, t))

end Satyr.Gdb
