import Verif.Text.RubyModel
import Verif.Text.LocModel
/-!
# Model of the locations kept while Ruby backtraces are read (lib/ruby_frame.c, lib/ruby_stacktrace.c)

The functions of `RubyModel` again, with the location that the C functions update. `inl` is the location and the message of a failure.
Columns are counted without overflow, which needs a text of more than 2^31 characters.
-/
namespace Satyr.Text.Ruby
open Satyr.CStr Satyr.Frames

/-- Where reading failed, and why. -/
abbrev Failure := Loc × Str

/-- `location->column += n`. -/
def right (l : Loc) (n : Int) : Loc := ⟨l.line, l.column + n⟩

/-- The file name and line number in front of the backtick (lib/ruby_frame.c:210-262); `loc` is the location of the backtick. -/
def fileAndLineL (l : Str) (loc : Loc) : Out (Failure ⊕ (Str × Nat)) :=
  if l.length < 4 ∨ l.drop (l.length - 4) ≠ c!":in " then
    .ok (.inl (right loc (-4), c!"Unable to find ':in ' preceding the backtick character."))
  else do
  let q := l.take (l.length - 4)
  let p ← backDigits q q.length
  match ← parseUint32 (q.drop p) with
  | (_, none, _) => .ok (.inl (loc, c!"Unable to find line number before ':in '"))
  | (n, some line, _) =>
    if p = 0 then .ok (.inl (right loc (-n), c!"Unable to fin the ':' character preceding the line number")) else do
    let c ← rd q (p - 1)
    if c ≠ ':' then .ok (.inl (right loc (-n), c!"Unable to fin the ':' character preceding the line number"))
    else .ok (.inr (anonymizePath (q.take (p - 1)), line))

/-- The number of blocks (lib/ruby_frame.c:283-299). -/
def blocksL (s : Str) (loc : Loc) : Out (Failure ⊕ (Nat × Str × Loc)) :=
  let (k, t) := skipString s c!"block in "
  if k ≠ 0 then .ok (.inr (1, t, right loc 8)) else
  let (k, t) := skipString s c!"block ("
  if k = 0 then .ok (.inr (0, s, loc)) else do
  match ← parseUint32 t with
  | (_, none, _) => .ok (.inl (right loc 7, c!"Unable to parse block depth."))
  | (len, some n, t) =>
    let (k, t) := skipString t c!" levels) in "
    if k = 0 then .ok (.inl (right loc 7, c!"Unable to parse block depth.")) else .ok (.inr (n, t, right loc (7 + (len + 12))))

/-- The message for the quote at the end of a function name (lib/ruby_frame.c:309-310, 328-329). -/
def quoteMessage : Str := c!"Unable to find the \"'\" character delimiting the function name."

/-- The function name up to the closing quote (lib/ruby_frame.c:301-332). -/
def functionNameL (s : Str) (loc : Loc) : Out (Failure ⊕ (Bool × Str × Str × Loc)) := do
  let (special, s) ← skipChar s '<'
  let loc := if special = true then right loc 1 else loc
  let (name, s) ← parseCharCspan s c!"'>"
  match name with
  | none => .ok (.inl (loc, quoteMessage))
  | some name => do
    let loc := right loc name.length
    let (ok, s) ← closeSpecial special s
    if ok = false then .ok (.inl (loc, c!"Unable to find the \">\" character delimiting the function name.")) else
    let loc := if special = true then right loc 1 else loc
    let (ok, s) ← skipChar s '\''
    if ok = false then .ok (.inl (loc, quoteMessage)) else .ok (.inr (special, name, s, right loc 1))

/-- The message for the backtick (lib/ruby_frame.c:205-206, 266-267). -/
def backtickMessage : Str := c!"Unable to find the '`' character identifying the beginning of function name."

/-- `sr_ruby_frame_parse` (lib/ruby_frame.c:191-341). -/
def parseFrameL (inp : Str) (loc : Loc) : Out (Failure ⊕ (RubyFrame × Str × Loc)) := do
  let (l, s) ← parseCharCspan inp c!"`"
  match l with
  | none => .ok (.inl (loc, backtickMessage))
  | some l =>
    match ← fileAndLineL l (right loc l.length) with
    | .inl e => .ok (.inl e)
    | .inr (file, line) => do
      let (ok, s) ← skipChar s '`'
      if ok = false then .ok (.inl (right loc l.length, backtickMessage)) else
      let (rescue, s) := rescues (s.length + 1) s 0
      match ← blocksL s (right loc (l.length + 1 + 10 * rescue)) with
      | .inl e => .ok (.inl e)
      | .inr (block, s, loc) =>
        match ← functionNameL s loc with
        | .inl e => .ok (.inl e)
        | .inr (special, name, s, loc) => .ok (.inr (⟨some file, line, special, some name, block, rescue⟩, s, loc))

/-- The class at the end of the message (lib/ruby_stacktrace.c:169-219); `loc` is the location after the message. -/
def exceptionClassL (m : Str) (loc : Loc) : Out (Failure ⊕ Str) :=
  if m.length < 1 ∨ m.drop (m.length - 1) ≠ c!"\n" then
    .ok (.inl (right loc (-1), c!"Unable to find the new line character after the end of exception class"))
  else if m.length < 2 ∨ m.drop (m.length - 2) ≠ c!")\n" then
    .ok (.inl (right loc (-2), c!"Unable to find the ')' character identifying the end of exception class"))
  else do
  let q := m.take (m.length - 2)
  let p ← backParen q q.length
  if (q.drop p).length = 0 then
    .ok (.inl (loc, c!"Unable to find the '(' character identifying the beginning of the exception class"))
  else if p = 0 then
    .ok (.inl (loc, c!"Unable to find the '(' character identifying the beginning of the exception class"))
  else do
  let c ← rd q (p - 1)
  if c ≠ '(' then .ok (.inl (loc, c!"Unable to find the '(' character identifying the beginning of the exception class"))
  else .ok (.inr (q.drop p))

/-- The loop over the frames (lib/ruby_stacktrace.c:231-261). -/
def framesLoopL : Nat → Str → Loc → List RubyFrame → Out (Failure ⊕ (List RubyFrame × Str))
  | 0, _, _, _ => .ub
  | fuel + 1, s, loc, acc =>
    if peek s = '\x00' then .ok (.inr (acc, s)) else
    let (k, t) := skipString s c!"\tfrom "
    if k = 0 then .ok (.inl (loc, c!"Frame header not found.")) else do
    match ← parseFrameL t (right loc k) with
    | .inl e => .ok (.inl e)
    | .inr (f, s, loc) =>
      let (newline, s) ← skipChar s '\n'
      if newline = false ∧ peek s ≠ '\x00' then .ok (.inl (loc, c!"Expected newline after stacktrace frame."))
      else framesLoopL fuel s ⟨loc.line + 1, 0⟩ (acc ++ [f])

/-- The first line of a backtrace (lib/ruby_stacktrace.c:136-229). -/
def headL (inp : Str) (loc : Loc) : Out (Failure ⊕ (RubyFrame × Str × Str × Loc)) := do
  match ← parseFrameL inp loc with
  | .inl (loc, message) => .ok (.inl (loc, c!"Topmost stacktrace frame not found: " ++ message))
  | .inr (f, s, loc) =>
    let (k, s) := skipString s c!": "
    if k = 0 then .ok (.inl (loc, c!"Unable to find the colon after first function name.")) else do
    let loc := right loc 2
    let (m, s) ← parseCharCspan s c!"\t"
    match m with
    | none => .ok (.inl (loc, c!"Unable to find the exception type and message."))
    | some m =>
      match ← exceptionClassL m (right loc m.length) with
      | .inl e => .ok (.inl e)
      | .inr name => .ok (.inr (f, name, s, ⟨loc.line + 1, 0⟩))

/-- `sr_ruby_stacktrace_parse` (lib/ruby_stacktrace.c:128-270). -/
def parseL (inp : Str) (loc : Loc) : Out (Failure ⊕ (RubyTrace × Str)) := do
  match ← headL inp loc with
  | .inl e => .ok (.inl e)
  | .inr (f, name, s, loc) =>
    match ← framesLoopL (s.length + 1) s loc [f] with
    | .inl e => .ok (.inl e)
    | .inr (frames, s) => .ok (.inr (⟨some name, frames⟩, s))

/-- `sr_stacktrace_parse` for Ruby: `stacktrace_parse_wrapper` (lib/generic_stacktrace.c:78-93); `inr` is the error message. -/
def parseText (inp : Str) : Out (RubyTrace ⊕ Str) := do
  match ← parseL inp Loc.init with
  | .inl (loc, message) => .ok (.inr (loc.text (some message)))
  | .inr (t, _) => .ok (.inl t)

end Satyr.Text.Ruby
