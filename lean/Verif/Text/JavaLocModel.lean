import Verif.Text.JavaModel
import Verif.Text.LocModel
/-!
# Model of the locations kept while Java stack traces are read (lib/java_frame.c, lib/java_thread.c)

The functions of `JavaModel` again, with the location that the C functions update. `inl` is the location and the message of a failure.
Columns are counted without overflow, which needs a text of more than 2^31 characters.
-/
namespace Satyr.Text.Java
open Satyr.CStr Satyr.Frames

/-- `sr_location_add(location, 0, n)`. -/
def right (l : Loc) (n : Int) : Loc := l.add 0 n

/-- `cursor = sr_skip_whitespace(mark); sr_location_add(location, 0, cursor - mark);` -/
def wsL (s : Str) (l : Loc) : Loc := right l (s.length - (skipWs s).length)

/-- The `jar:` prefix (lib/java_frame.c:439-453). -/
def jarPrefixL (mark cursor : Str) (l : Loc) : Out ((Str × Loc) ⊕ (Str × Str × Str × Loc)) :=
  if startsWith mark c!"jar:" = true then do
    let mark ← advance cursor
    let (n, cursor) ← skipCharCspan mark c!":\n"
    let l := right (right l 1) n
    if peek cursor ≠ ':' then .ok (.inl (cursor, l)) else .ok (.inr (c!"!\n", mark, cursor, l))
  else .ok (.inr (c!"]\n", mark, cursor, l))

/-- The `file:` prefix (lib/java_frame.c:455-465). -/
def filePrefixL (mark cursor : Str) (l : Loc) : Out (Str × Loc) :=
  if startsWith mark c!"file:" = true then do
    let mark ← advance cursor
    .ok (mark, right l 1)
  else .ok (mark, right l (-(mark.length - cursor.length)))

/-- The path (lib/java_frame.c:455-473). -/
def pathL (stop mark cursor : Str) (l : Loc) : Out (Option Str × Str × Loc) := do
  let (mark, l) ← filePrefixL mark cursor l
  let (n, cursor) ← skipCharCspan mark stop
  .ok (if n = 0 then none else some (anonymizePath (strndup mark n)), cursor, right l n)

/-- The end of the path (lib/java_frame.c:476-477). -/
def pathEndL (r : Option Str × Str × Loc) : Out (Option Str × Str × Loc) :=
  if peek r.2.1 ≠ ']' ∧ peek r.2.1 ≠ '\n' then do
    let (n, cursor) ← skipCharCspan r.2.1 c!"]\n"
    .ok (r.1, cursor, right r.2.2 n)
  else .ok r

/-- `sr_java_frame_parse_frame_url` (lib/java_frame.c:420-480). -/
def frameUrlL (s : Str) (l : Loc) : Out (Option Str × Str × Loc) := do
  let (n, s) ← skipCharCspan s c!"[\n"
  let l := right l n
  if peek s ≠ '[' then .ok (none, s, l) else do
  let mark ← advance s
  let (n, cursor) ← skipCharCspan mark c!":\n"
  let l := right (right l 1) n
  if peek cursor ≠ ':' then pathEndL (none, cursor, l) else do
  match ← jarPrefixL mark cursor l with
  | .inl (cursor, l) => .ok (none, cursor, l)
  | .inr (stop, mark, cursor, l) =>
    let r ← pathL stop mark cursor l
    pathEndL r

/-- The line number (lib/java_frame.c:534-543). -/
def lineNumberL (s : Str) (l : Loc) : Out (Nat × Str × Loc) :=
  if peek s = ':' then do
    let mark ← advance s
    let (_, v, s) ← parseUint32 mark
    .ok (v.getD 0, s, right (right l 1) (mark.length - s.length))
  else .ok (0, s, l)

/-- The source in parentheses (lib/java_frame.c:514-545). -/
def sourceL (s : Str) (l : Loc) : Out (Bool × Option Str × Nat × Str × Loc) :=
  if peek s ≠ '(' then .ok (false, none, 0, s, l) else do
  let mark ← advance s
  let (n, s) ← skipCharCspan mark c!":)\n"
  let native := n ≠ 0 && startsWith mark nativeMark
  let file := if n ≠ 0 && !startsWith mark nativeMark && !startsWith mark unknownMark then some (anonymizePath (strndup mark n)) else none
  let (line, s, l) ← lineNumberL s (right (right l 1) n)
  .ok (native, file, line, s, l)

/-- The end of the line (lib/java_frame.c:548-560). -/
def lineEndL (s : Str) (l : Loc) : Out (Str × Loc) :=
  let cursor := s.drop (strchrnulI '\n' s)
  if peek cursor = '\n' then do
    let rest ← advance cursor
    .ok (rest, l.add 2 0)
  else .ok (cursor, right l ((s.length - cursor.length) - 1))

/-- `sr_java_frame_parse` (lib/java_frame.c:482-563). -/
def parseFrameL (inp : Str) (l : Loc) : Out ((Loc × Str) ⊕ (JavaFrame × Str × Loc)) :=
  match strstrLocation inp c!"at" with
  | (none, _) => .ok (.inl (l, c!"Frame expected"))
  | (some cursor, at') => do
    let l := l.add at'.line (at'.column + 2)
    let mark := skipWs (cursor.drop 2)
    let l := wsL (cursor.drop 2) l
    let (n, s) ← skipCharCspan mark c!"(\n"
    let (isNative, fileName, fileLine, s, l) ← sourceL s (right l n)
    let (classPath, s, l) ← frameUrlL s l
    let (rest, l) ← lineEndL s l
    .ok (.inr (⟨if n = 0 then none else some (strndup mark n), fileName, fileLine, classPath, isNative, false, none⟩, rest, l))

/-- The message of an exception (lib/java_frame.c:296-316). -/
def messageL (s : Str) (l : Loc) : Out (Option Str × Str × Loc) :=
  if peek s = ':' then do
    let mark ← advance s
    let l := wsL mark (right l 1)
    let mark := skipWs mark
    let (n, s) ← skipCharCspan mark c!"\n"
    .ok (if n ≠ 0 then some (strndup mark n) else none, s, right l n)
  else do
    let (n, s) ← skipCharCspan s c!"\n"
    .ok (none, s, right l n)

/-- `if (*cursor == '\n') …` (lib/java_frame.c:318-323). -/
def newlineL (s : Str) (l : Loc) : Out (Str × Loc) :=
  if peek s = '\n' then do
    let s ← advance s
    .ok (s, l.add 2 0)
  else .ok (s, l)

/-- The name and message of an exception (lib/java_frame.c:279-326). -/
def exceptionHeadL (s : Str) (l : Loc) : Out ((Loc × Str) ⊕ (JavaFrame × Str × Loc)) := do
  let mark := skipWs s
  let l := wsL s l
  let (n, s) ← skipCharCspan mark c!": \t\n"
  let l := right l n
  if n = 0 then .ok (.inl (l, c!"Expected exception name")) else do
  let (msg, s, l) ← messageL s l
  let (s, l) ← newlineL s l
  .ok (.inr ({ name := some (strndup mark n), isException := true, message := msg }, s, l))

/-- The loop over the frames of an exception (lib/java_frame.c:331-367). -/
def framesLoopL : Nat → Str → Loc → List JavaFrame → Out ((Loc × Str) ⊕ (List JavaFrame × Ending × Loc))
  | 0, _, _, _ => .ub
  | fuel + 1, s, l, acc =>
    if peek s = '\x00' then .ok (.inr (acc, .text s, l)) else
    let c := skipWs s
    let l := wsL s l
    if startsWith c c!"... " = true ∨ startsWith c c!"Suppressed: " = true then .ok (.inr (acc, .done c, l)) else
    if startsWith c c!"Caused by: " = true then .ok (.inr (acc, .cause c, l)) else do
    match ← parseFrameL c l with
    | .inl e => .ok (.inl e)
    | .inr (f, s, l) => framesLoopL fuel s l (acc ++ [f])

/-- `while (cursor && isspace(*cursor)) sr_skip_to_next_line_location(...)` (lib/java_frame.c:387-388). -/
def skipIndentedL : Nat → Str → Loc → Out (Str × Loc)
  | 0, _, _ => .ub
  | fuel + 1, s, l =>
    if isSpace (peek s) = true then do
      let (_, s, l) ← skipToNextLine s l
      skipIndentedL fuel s l
    else .ok (s, l)

/-- The lines of suppressed exceptions (lib/java_frame.c:379-389). -/
def skipSuppressedL (s : Str) (l : Loc) : Out (Str × Loc) :=
  if startsWith s c!"Suppressed: " = true then do
    let (_, s, l) ← skipToNextLine s l
    skipIndentedL (s.length + 1) s l
  else .ok (s, l)

/-- From the end of the frames to the exception that caused this one, or to the end (lib/java_frame.c:372-395). -/
def causedByL : Ending → Loc → Out (Str ⊕ (Str × Loc))
  | .text s, _ => .ok (.inl s)
  | .cause s, l => .ok (.inr (s.drop 11, right l 11))
  | .done s, l => do
    let (_, s, l) ← skipToNextLine s l
    let (s, l) ← skipSuppressedL (skipWs s) (wsL s l)
    if startsWith s c!"Caused by: " = true then .ok (.inr (s.drop 11, right l 11)) else .ok (.inl s)

/-- `sr_java_frame_parse_exception` (lib/java_frame.c:275-413). The location after the whole text is not looked at. -/
def parseExceptionL : Nat → Str → Loc → Out ((Loc × Str) ⊕ (List JavaFrame × Str))
  | 0, _, _ => .ub
  | fuel + 1, s, l => do
    match ← exceptionHeadL s l with
    | .inl e => .ok (.inl e)
    | .inr (e, s, l) =>
      match ← framesLoopL (s.length + 1) s l [] with
      | .inl e => .ok (.inl e)
      | .inr (frames, ending, l) =>
        match ← causedByL ending l with
        | .inl s => .ok (.inr (e :: frames, s))
        | .inr (s, l) =>
          match ← parseExceptionL fuel s l with
          | .inl e => .ok (.inl e)
          | .inr (inner, s) => .ok (.inr (inner ++ e :: frames, s))

/-- The name of a thread (lib/java_thread.c:308-332). After the name, the character behind the quotation mark decides how the location
moves. -/
def threadNameL (inp : Str) (l : Loc) : Out ((Loc × Str) ⊕ (Option Str × Str × Loc)) :=
  let (chars, mark) := skipString inp c!"Exception in thread \""
  let l := right l chars
  if chars = 0 then .ok (.inr (none, mark, l)) else do
  let (n, s) ← skipCharCspan mark c!"\"\n"
  let l := right l n
  if peek s ≠ '"' then .ok (.inl (l, c!"\"Thread\" name end expected")) else do
  let s ← advance s
  .ok (.inr (some (strndup mark n), s, l.eat (peek s)))

/-- `sr_java_thread_parse` (lib/java_thread.c:304-343) and `sr_java_stacktrace_parse` (lib/java_stacktrace.c:148-159). -/
def parseThreadL (inp : Str) (l : Loc) : Out ((Loc × Str) ⊕ (JavaThread × Str)) := do
  match ← threadNameL inp l with
  | .inl e => .ok (.inl e)
  | .inr (name, s, l) =>
    match ← parseExceptionL (s.length + 1) s l with
    | .inl e => .ok (.inl e)
    | .inr (frames, s) => .ok (.inr (⟨name, frames⟩, s))

/-- `sr_stacktrace_parse` for Java: `stacktrace_parse_wrapper` (lib/generic_stacktrace.c:78-93); `inr` is the error message. -/
def parseText (inp : Str) : Out (JavaThread ⊕ Str) := do
  match ← parseThreadL inp Loc.init with
  | .inl (loc, message) => .ok (.inr (loc.text (some message)))
  | .inr (t, _) => .ok (.inl t)

end Satyr.Text.Java
