import Verif.Text.PythonModel
import Verif.Text.LocModel
/-!
# Model of the locations kept while Python tracebacks are read (lib/python_frame.c, lib/python_stacktrace.c)

The functions of `PythonModel` again, with the locations that the C functions update. `inl` is a failure.
Columns are counted without overflow, which needs a text of more than 2^31 characters.
-/
namespace Satyr.Text.Python
open Satyr.CStr Satyr.Frames

/-- `location->column += n`. -/
def right (l : Loc) (n : Int) : Loc := ⟨l.line, l.column + n⟩

/-- The name of the function, or the end of the line (lib/python_frame.c:294-334). -/
def functionNameL (s : Str) (loc : Loc) : Out (Str ⊕ ((Bool × Str) × Str × Loc)) :=
  let (n, t) := skipString s c!", in "
  if n = 0 then
    if peek t ≠ '\n' then .ok (.inl c!"Function name separator not found.") else .ok (.inr ((true, c!"syntax"), t, loc))
  else do
    let (name, t) ← parseCharCspan t c!"\n"
    match name with
    | none => .ok (.inl c!"Unable to find the newline character identifying the end of function name.")
    | some name => .ok (.inr (stripSpecial name, t, right loc (5 + name.length)))

/-- The source line (lib/python_frame.c:339-345); `sr_location_add` with one line moves the location by no line and no column. -/
def sourceLineL (s : Str) (loc : Loc) : Out (Option Str × Str × Loc) :=
  let (n, t) := skipString s c!"    "
  if n = 4 then do
    let (contents, t) ← parseCharCspan t c!"\n"
    if contents = none then .ok (none, t, loc) else
    let (newline, t) ← skipChar t '\n'
    .ok (contents, t, if newline = true then loc.add 1 0 else loc)
  else .ok (none, t, loc)

/-- `sr_python_frame_parse` after the line of markers (lib/python_frame.c:243-353). The message is kept in the location, which is
not looked at again after a failure. -/
def frameBodyL (s : Str) (loc : Loc) : Out (Str ⊕ (PythonFrame × Str × Loc)) :=
  let (n, s) := skipString s c!"  File \""
  if n = 0 then .ok (.inl c!"Frame header not found.") else do
  let (file, s) ← parseCharCspan s c!"\""
  match file with
  | none => .ok (.inl c!"Unable to find the '\"' character identifying the beginning of file name.")
  | some file =>
    let (n, s) := skipString s c!"\", line "
    if n = 0 then .ok (.inl c!"Line separator not found.") else do
    match ← parseUint32 s with
    | (_, none, _) => .ok (.inl c!"Line number not found.")
    | (len, some line, s) =>
      match ← functionNameL s (right loc (8 + (anonymizePath (stripSpecial file).2).length + 8 + len)) with
      | .inl m => .ok (.inl m)
      | .inr (fn, s, loc) => do
        let (newline, s) ← skipChar s '\n'
        let (contents, s, loc) ← sourceLineL s (if newline = true then loc.add 1 0 else loc)
        .ok (.inr (⟨(stripSpecial file).1, some (anonymizePath (stripSpecial file).2), line, fn.1, some fn.2, contents⟩, s, loc))

/-- `sr_python_frame_parse` (lib/python_frame.c:204-353): the message or the frame, the new value of `*input` and the location. -/
def parseFrameL (inp : Str) (loc : Loc) : Out ((Str ⊕ PythonFrame) × Str × Loc) := do
  let s ← skipErrorLine inp
  match ← frameBodyL s loc with
  | .inl m => .ok (.inl m, s, loc)
  | .inr (f, t, loc) => .ok (.inr f, t, loc)

/-- The loop over the frames (lib/python_stacktrace.c:190-209); `loc` is the location of the traceback, `floc` that of the frames,
which is set to its initial value only before the loop. The last result is the message of the frame that could not be read. -/
def framesLoopL : Nat → Str → Loc → Loc → List PythonFrame → Out (List PythonFrame × Str × Loc × Str)
  | 0, _, _, _, _ => .abort
  | fuel + 1, s, loc, floc, acc => do
    match ← parseFrameL s floc with
    | (.inl m, s, _) => .ok (acc, s, loc, m)
    | (.inr f, s, floc) => framesLoopL fuel s (loc.add floc.line floc.column) floc (f :: acc)

/-- The start of the frames (lib/python_stacktrace.c:135-188). The searches overwrite the location; the second and third begin to count
at the beginning of the text that they search. -/
def startL (inp : Str) : Out ((Loc × Str) ⊕ (Str × Loc)) := do
  let (_, s) ← skipChar inp '\n'
  match strstrLocation s header with
  | (some t, loc) => .ok (.inr (t.drop header.length, ⟨loc.line + 2, 0⟩))
  | (none, _) =>
    match strstrLocation inp c!"invalid syntax (" with
    | (none, loc) => .ok (.inl (loc, c!"Traceback header not found."))
    | (some t, _) =>
      match strstrLocation t c!"  File \"" with
      | (none, loc) => .ok (.inl (loc, c!"Frame with invalid line not found."))
      | (some t, loc) => .ok (.inr (t, loc))

/-- `sr_python_stacktrace_parse` (lib/python_stacktrace.c:129-231). -/
def parseL (inp : Str) : Out ((Loc × Str) ⊕ (PythonTrace × Str)) := do
  match ← startL inp with
  | .inl e => .ok (.inl e)
  | .inr (s, loc) =>
    let (frames, s, loc, m) ← framesLoopL (s.length + 1) s loc Loc.init []
    if frames = [] then .ok (.inl (loc, m)) else
    let (name, s) ← parseCharCspan s c!":\n"
    match name with
    | none => .ok (.inl (loc, c!"Unable to find the ':\\n' characters identifying the end of exception name."))
    | some name => .ok (.inr (⟨some name, frames⟩, s))

/-- `sr_stacktrace_parse` for Python: `stacktrace_parse_wrapper` (lib/generic_stacktrace.c:78-93); `inr` is the error message. -/
def parseText (inp : Str) : Out (PythonTrace ⊕ Str) := do
  match ← parseL inp with
  | .inl (loc, message) => .ok (.inr (loc.text (some message)))
  | .inr (t, _) => .ok (.inl t)

end Satyr.Text.Python
