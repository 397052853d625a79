import Verif.CStr.Parse
import Verif.Frames.Traces
/-!
# Model of reading and printing Java frames, exceptions and threads (lib/java_frame.c, lib/java_thread.c)

Locations are not modelled. `none` is the result `NULL`. Running out of fuel is made an undefined outcome, so that
a proof that the outcome is defined also shows that the loops end.
-/
namespace Satyr.Text.Java
open Satyr.CStr Satyr.Frames

/-- `SR_JF_MARK_NATIVE_METHOD` (lib/java_frame.c:33). -/
def nativeMark : Str := c!"Native Method"
/-- `SR_JF_MARK_UNKNOWN_SOURCE` (lib/java_frame.c:34). -/
def unknownMark : Str := c!"Unknown Source"

/-- The part of `sr_java_frame_append_to_str` for the class path (lib/java_frame.c:244-254). -/
def printPath : Option Str → Str
  | none => c!" [unknown]"
  | some p => c!" [" ++ (if strchrnulI ':' p > strchrnulI '/' p then c!"file:" else []) ++ p ++ c!"]"

/-- `sr_java_frame_append_to_str` (lib/java_frame.c:212-256). -/
def printFrame (f : JavaFrame) : Str :=
  if f.isException = true then f.name.getD [] ++ (match f.message with | none => [] | some m => c!": " ++ m)
  else c!"\tat " ++ f.name.getD [] ++ c!"(" ++
    (if f.isNative = true then nativeMark else f.fileName.getD unknownMark) ++
    (if f.fileLine ≠ 0 then ':' :: natDec f.fileLine else []) ++ c!")" ++ printPath f.classPath

/-! ## Frames -/

/-- The `jar:` prefix (lib/java_frame.c:439-453): `inl` is a return, `inr` has the characters that end the path, `mark` and `cursor`. -/
def jarPrefix (mark cursor : Str) : Out (Str ⊕ (Str × Str × Str)) :=
  if startsWith mark c!"jar:" = true then do
    let mark ← advance cursor
    let (_, cursor) ← skipCharCspan mark c!":\n"
    if peek cursor ≠ ':' then .ok (.inl cursor) else .ok (.inr (c!"!\n", mark, cursor))
  else .ok (.inr (c!"]\n", mark, cursor))

/-- The `file:` prefix (lib/java_frame.c:455-465). -/
def filePrefix (mark cursor : Str) : Out Str :=
  if startsWith mark c!"file:" = true then advance cursor else .ok mark

/-- The path (lib/java_frame.c:455-473): the class path and the cursor. -/
def path (stop mark cursor : Str) : Out (Option Str × Str) := do
  let mark ← filePrefix mark cursor
  let (n, cursor) ← skipCharCspan mark stop
  .ok (if n = 0 then none else some (anonymizePath (strndup mark n)), cursor)

/-- The end of the path (lib/java_frame.c:476-477). -/
def pathEnd (r : Option Str × Str) : Out (Option Str × Str) :=
  if peek r.2 ≠ ']' ∧ peek r.2 ≠ '\n' then do
    let (_, cursor) ← skipCharCspan r.2 c!"]\n"
    .ok (r.1, cursor)
  else .ok r

/-- `sr_java_frame_parse_frame_url` (lib/java_frame.c:420-480): the class path and the returned pointer. -/
def frameUrl (s : Str) : Out (Option Str × Str) := do
  let (_, s) ← skipCharCspan s c!"[\n"
  if peek s ≠ '[' then .ok (none, s) else do
  let mark ← advance s
  let (_, cursor) ← skipCharCspan mark c!":\n"
  if peek cursor ≠ ':' then pathEnd (none, cursor) else do
  match ← jarPrefix mark cursor with
  | .inl cursor => .ok (none, cursor)
  | .inr (stop, mark, cursor) =>
    let r ← path stop mark cursor
    pathEnd r

/-- The line number (lib/java_frame.c:534-543). -/
def lineNumber (s : Str) : Out (Nat × Str) :=
  if peek s = ':' then do
    let mark ← advance s
    let (_, v, s) ← parseUint32 mark
    .ok (v.getD 0, s)
  else .ok (0, s)

/-- The source in parentheses (lib/java_frame.c:514-545): whether the method is native, the file name, the line, and the cursor. -/
def source (s : Str) : Out (Bool × Option Str × Nat × Str) :=
  if peek s ≠ '(' then .ok (false, none, 0, s) else do
  let mark ← advance s
  let (n, s) ← skipCharCspan mark c!":)\n"
  let native := n ≠ 0 && startsWith mark nativeMark
  let file := if n ≠ 0 && !startsWith mark nativeMark && !startsWith mark unknownMark then some (anonymizePath (strndup mark n)) else none
  let (line, s) ← lineNumber s
  .ok (native, file, line, s)

/-- The end of the line (lib/java_frame.c:548-560). -/
def lineEnd (s : Str) : Out Str :=
  let cursor := s.drop (strchrnulI '\n' s)
  if peek cursor = '\n' then advance cursor else .ok cursor

/-- `sr_java_frame_parse` (lib/java_frame.c:482-563). -/
def parseFrame (inp : Str) : Out (Option (JavaFrame × Str)) :=
  match (strstrLocation inp c!"at").1 with
  | none => .ok none
  | some cursor => do
    let mark := skipWs (cursor.drop 2)
    let (n, s) ← skipCharCspan mark c!"(\n"
    let (isNative, fileName, fileLine, s) ← source s
    let (classPath, s) ← frameUrl s
    let rest ← lineEnd s
    .ok (some (⟨if n = 0 then none else some (strndup mark n), fileName, fileLine, classPath, isNative, false, none⟩, rest))

/-! ## Exceptions -/

/-- The message of an exception (lib/java_frame.c:296-316): the message and the end of the line. -/
def message (s : Str) : Out (Option Str × Str) :=
  if peek s = ':' then do
    let mark ← advance s
    let mark := skipWs mark
    let (n, s) ← skipCharCspan mark c!"\n"
    .ok (if n ≠ 0 then some (strndup mark n) else none, s)
  else do
    let (_, s) ← skipCharCspan s c!"\n"
    .ok (none, s)

/-- `if (*cursor == '\n') ++cursor;` (lib/java_frame.c:318-323). -/
def newline (s : Str) : Out Str := if peek s = '\n' then advance s else .ok s

/-- The name and message of an exception (lib/java_frame.c:279-326). -/
def exceptionHead (s : Str) : Out (Option (JavaFrame × Str)) := do
  let mark := skipWs s
  let (n, s) ← skipCharCspan mark c!": \t\n"
  if n = 0 then .ok none else do
  let (msg, s) ← message s
  let s ← newline s
  .ok (some ({ name := some (strndup mark n), isException := true, message := msg }, s))

/-- How the frames of an exception end: at the end of the text, at a line that ends the exception, or at the exception that caused it. -/
inductive Ending where
  | text (s : Str)
  | done (s : Str)
  | cause (s : Str)

/-- The loop over the frames of an exception (lib/java_frame.c:331-367). Every frame is at least two characters long, so the fuel
`length + 1` suffices. -/
def framesLoop : Nat → Str → List JavaFrame → Out (Option (List JavaFrame × Ending))
  | 0, _, _ => .ub
  | fuel + 1, s, acc =>
    if peek s = '\x00' then .ok (some (acc, .text s)) else
    let c := skipWs s
    if startsWith c c!"... " = true ∨ startsWith c c!"Suppressed: " = true then .ok (some (acc, .done c)) else
    if startsWith c c!"Caused by: " = true then .ok (some (acc, .cause c)) else do
    match ← parseFrame c with
    | none => .ok none
    | some (f, s) => framesLoop fuel s (acc ++ [f])

/-- `while (cursor && isspace(*cursor)) sr_skip_to_next_line_location(...)` (lib/java_frame.c:387-388). -/
def skipIndented : Nat → Str → Out Str
  | 0, _ => .ub
  | fuel + 1, s =>
    if isSpace (peek s) = true then do
      let (_, s, _) ← skipToNextLine s Loc.init
      skipIndented fuel s
    else .ok s

/-- The lines of suppressed exceptions (lib/java_frame.c:379-389). -/
def skipSuppressed (s : Str) : Out Str :=
  if startsWith s c!"Suppressed: " = true then do
    let (_, s, _) ← skipToNextLine s Loc.init
    skipIndented (s.length + 1) s
  else .ok s

/-- From the end of the frames to the exception that caused this one, or to the end (lib/java_frame.c:372-395): `inl` is the end,
`inr` the text after `Caused by: `. -/
def causedBy : Ending → Out (Str ⊕ Str)
  | .text s => .ok (.inl s)
  | .cause s => .ok (.inr (s.drop 11))
  | .done s => do
    let (_, s, _) ← skipToNextLine s Loc.init
    let s ← skipSuppressed (skipWs s)
    if startsWith s c!"Caused by: " = true then .ok (.inr (s.drop 11)) else .ok (.inl s)

/-- `sr_java_frame_parse_exception` (lib/java_frame.c:275-413). Every exception is longer than its cause, so the fuel `length + 1`
suffices. -/
def parseException : Nat → Str → Out (Option (List JavaFrame × Str))
  | 0, _ => .ub
  | fuel + 1, s => do
    match ← exceptionHead s with
    | none => .ok none
    | some (e, s) =>
      match ← framesLoop (s.length + 1) s [] with
      | none => .ok none
      | some (frames, ending) =>
        match ← causedBy ending with
        | .inl s => .ok (some (e :: frames, s))
        | .inr s =>
          match ← parseException fuel s with
          | none => .ok none
          | some (inner, s) => .ok (some (inner ++ e :: frames, s))

/-! ## Threads -/

/-- The name of a thread (lib/java_thread.c:308-332): the name, if there is one, and the cursor. -/
def threadName (inp : Str) : Out (Option (Option Str × Str)) :=
  let (chars, mark) := skipString inp c!"Exception in thread \""
  if chars = 0 then .ok (some (none, mark)) else do
  let (n, s) ← skipCharCspan mark c!"\"\n"
  if peek s ≠ '"' then .ok none else do
  let s ← advance s
  .ok (some (some (strndup mark n), s))

/-- `sr_java_thread_parse` (lib/java_thread.c:304-343) and `sr_java_stacktrace_parse` (lib/java_stacktrace.c:148-159). -/
def parseThread (inp : Str) : Out (Option (JavaThread × Str)) := do
  match ← threadName inp with
  | none => .ok none
  | some (name, s) =>
    match ← parseException (s.length + 1) s with
    | none => .ok none
    | some (frames, s) => .ok (some (⟨name, frames⟩, s))

/-- The loop of `sr_java_thread_append_to_str` (lib/java_thread.c:276-291): `dest` and `exception`. -/
def printLoop : List JavaFrame → Str → Str → Str × Str
  | [], dest, exception => (dest, exception)
  | f :: l, dest, exception =>
    if f.isException = true ∧ exception.length > 0 then
      printLoop l (c!"Caused by: " ++ exception ++ c!"\t...\n" ++ dest) (printFrame f ++ c!"\n")
    else printLoop l dest (exception ++ printFrame f ++ c!"\n")

/-- `sr_java_thread_append_to_str` (lib/java_thread.c:271-302) with an empty string. -/
def printThread (t : JavaThread) : Str :=
  let r := printLoop t.frames [] []
  c!"Exception in thread \"" ++ t.name.getD [] ++ c!"\" " ++ r.2 ++ r.1

end Satyr.Text.Java
