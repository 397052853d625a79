import Verif.CStr.Parse
import Verif.Frames.Traces
/-!
# Model of reading Python tracebacks (lib/python_frame.c, lib/python_stacktrace.c)

Locations are not modelled. `none` is the result `NULL`. Running out of fuel is made the outcome `abort`, so that a
proof that this is not the outcome shows that the loop ends.
-/
namespace Satyr.Text.Python
open Satyr.CStr Satyr.Frames

/-- The loop that looks for a line of markers (lib/python_frame.c:223-233). -/
def isErrorLine : Str → Bool
  | [] => true
  | c :: s => if c = '\n' then true else if c ≠ ' ' ∧ c ≠ '^' ∧ c ≠ '~' then false else isErrorLine s

/-- Skipping a line of markers (lib/python_frame.c:235-241): the character after the line is skipped without a check. -/
def skipErrorLine (s : Str) : Out Str :=
  if isErrorLine s = true then do
    let (_, t) ← skipCharCspan s c!"\n"
    advance t
  else .ok s

/-- Taking off angle brackets (lib/python_frame.c:261-270, 324-333). -/
def stripSpecial (s : Str) : Bool × Str :=
  if s.length > 0 ∧ peek s = '<' ∧ s.getLast? = some '>' then (true, s.dropLast.tail) else (false, s)

/-- The name of the function, or the end of the line (lib/python_frame.c:294-334). -/
def functionName (s : Str) : Out (Option ((Bool × Str) × Str)) :=
  let (n, t) := skipString s c!", in "
  if n = 0 then
    if peek t ≠ '\n' then .ok none else .ok (some ((true, c!"syntax"), t))
  else do
    let (name, t) ← parseCharCspan t c!"\n"
    match name with
    | none => .ok none
    | some name => .ok (some (stripSpecial name, t))

/-- The source line (lib/python_frame.c:339-345). -/
def sourceLine (s : Str) : Out (Option Str × Str) :=
  let (n, t) := skipString s c!"    "
  if n = 4 then do
    let (contents, t) ← parseCharCspan t c!"\n"
    if contents = none then .ok (none, t) else
    let (_, t) ← skipChar t '\n'
    .ok (contents, t)
  else .ok (none, t)

/-- `sr_python_frame_parse` after the line of markers (lib/python_frame.c:243-353). -/
def frameBody (s : Str) : Out (Option (PythonFrame × Str)) :=
  let (n, s) := skipString s c!"  File \""
  if n = 0 then .ok none else do
  let (file, s) ← parseCharCspan s c!"\""
  match file with
  | none => .ok none
  | some file =>
    let (n, s) := skipString s c!"\", line "
    if n = 0 then .ok none else do
    match ← parseUint32 s with
    | (_, none, _) => .ok none
    | (_, some line, s) =>
      match ← functionName s with
      | none => .ok none
      | some (fn, s) => do
        let (_, s) ← skipChar s '\n'
        let (contents, s) ← sourceLine s
        .ok (some (⟨(stripSpecial file).1, some (anonymizePath (stripSpecial file).2), line, fn.1, some fn.2, contents⟩, s))

/-- `sr_python_frame_parse` (lib/python_frame.c:204-353): the frame and the new value of `*input`. -/
def parseFrame (inp : Str) : Out (Option PythonFrame × Str) := do
  let s ← skipErrorLine inp
  match ← frameBody s with
  | none => .ok (none, s)
  | some (f, t) => .ok (some f, t)

/-- The loop over the frames (lib/python_stacktrace.c:196-209); every frame is longer than one character, so the fuel
`length + 1` suffices. -/
def framesLoop : Nat → Str → List PythonFrame → Out (List PythonFrame × Str)
  | 0, _, _ => .abort
  | fuel + 1, s, acc => do
    match ← parseFrame s with
    | (none, s) => .ok (acc, s)
    | (some f, s) => framesLoop fuel s (f :: acc)

/-- `HEADER` (lib/python_stacktrace.c:139). -/
def header : Str := c!"Traceback (most recent call last):\n"

/-- The start of the frames (lib/python_stacktrace.c:135-188). -/
def start (inp : Str) : Out (Option Str) := do
  let (_, s) ← skipChar inp '\n'
  match (strstrLocation s header).1 with
  | some t => .ok (some (t.drop header.length))
  | none =>
    match (strstrLocation inp c!"invalid syntax (").1 with
    | none => .ok none
    | some t => .ok (strstrLocation t c!"  File \"").1

/-- `sr_python_stacktrace_parse` (lib/python_stacktrace.c:129-231). -/
def parse (inp : Str) : Out (Option (PythonTrace × Str)) := do
  match ← start inp with
  | none => .ok none
  | some s =>
    let (frames, s) ← framesLoop (s.length + 1) s []
    if frames = [] then .ok none else
    let (name, s) ← parseCharCspan s c!":\n"
    match name with
    | none => .ok none
    | some name => .ok (some (⟨some name, frames⟩, s))

end Satyr.Text.Python
