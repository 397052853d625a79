import Verif.CStr.Parse
import Verif.Frames.Traces
/-!
# Model of reading Ruby backtraces (lib/ruby_frame.c, lib/ruby_stacktrace.c)

Locations are not modelled. `none` is the result `NULL`. Running out of fuel in the loop over the frames is made an
undefined outcome, so that a proof that the outcome is defined also shows that the loop ends. The levels of `rescue` are counted without overflow, which needs a text of
more than 2^35 characters.
-/
namespace Satyr.Text.Ruby
open Satyr.CStr Satyr.Frames

/-- Going back over digits (lib/ruby_frame.c:227-232): the position of the first digit of the run that ends before `k`. -/
def backDigits (q : Str) : Nat → Out Nat
  | 0 => .ok 0
  | k + 1 => (rd q k).bind fun c => if IsDec c = true then backDigits q k else .ok (k + 1)

/-- The file name and line number in front of the backtick (lib/ruby_frame.c:210-260). -/
def fileAndLine (l : Str) : Out (Option (Str × Nat)) :=
  if l.length < 4 ∨ l.drop (l.length - 4) ≠ c!":in " then .ok none else do
  let q := l.take (l.length - 4)
  let p ← backDigits q q.length
  match ← parseUint32 (q.drop p) with
  | (_, none, _) => .ok none
  | (_, some line, _) =>
    if p = 0 then .ok none else do
    let c ← rd q (p - 1)
    if c ≠ ':' then .ok none else .ok (some (anonymizePath (q.take (p - 1)), line))

/-- `while (sr_skip_string(&local_input, "rescue in ")) frame->rescue_level++` (lib/ruby_frame.c:277-281). -/
def rescues : Nat → Str → Nat → Nat × Str
  | 0, s, n => (n, s)
  | fuel + 1, s, n =>
    let (k, t) := skipString s c!"rescue in "
    if k = 0 then (n, t) else rescues fuel t (n + 1)

/-- The number of blocks (lib/ruby_frame.c:283-299). -/
def blocks (s : Str) : Out (Option (Nat × Str)) :=
  let (k, t) := skipString s c!"block in "
  if k ≠ 0 then .ok (some (1, t)) else
  let (k, t) := skipString s c!"block ("
  if k = 0 then .ok (some (0, s)) else do
  match ← parseUint32 t with
  | (_, none, _) => .ok none
  | (_, some n, t) =>
    let (k, t) := skipString t c!" levels) in "
    if k = 0 then .ok none else .ok (some (n, t))

/-- The closing angle bracket of a special function (lib/ruby_frame.c:315-324). -/
def closeSpecial (special : Bool) (s : Str) : Out (Bool × Str) := if special = true then skipChar s '>' else .ok (true, s)

/-- The function name up to the closing quote (lib/ruby_frame.c:301-332): whether it is special, and the name. -/
def functionName (s : Str) : Out (Option (Bool × Str × Str)) := do
  let (special, s) ← skipChar s '<'
  let (name, s) ← parseCharCspan s c!"'>"
  match name with
  | none => .ok none
  | some name => do
    let (ok, s) ← closeSpecial special s
    if ok = false then .ok none else
    let (ok, s) ← skipChar s '\''
    if ok = false then .ok none else .ok (some (special, name, s))

/-- `sr_ruby_frame_parse` (lib/ruby_frame.c:191-341). -/
def parseFrame (inp : Str) : Out (Option (RubyFrame × Str)) := do
  let (l, s) ← parseCharCspan inp c!"`"
  match l with
  | none => .ok none
  | some l =>
    match ← fileAndLine l with
    | none => .ok none
    | some (file, line) => do
      let (ok, s) ← skipChar s '`'
      if ok = false then .ok none else
      let (rescue, s) := rescues (s.length + 1) s 0
      match ← blocks s with
      | none => .ok none
      | some (block, s) =>
        match ← functionName s with
        | none => .ok none
        | some (special, name, s) => .ok (some (⟨some file, line, special, some name, block, rescue⟩, s))

/-- Going back to an opening parenthesis (lib/ruby_stacktrace.c:196-200): the position after it. -/
def backParen (q : Str) : Nat → Out Nat
  | 0 => .ok 0
  | k + 1 => (rd q k).bind fun c => if c ≠ '(' then backParen q k else .ok (k + 1)

/-- The class at the end of the message (lib/ruby_stacktrace.c:169-219). -/
def exceptionClass (m : Str) : Out (Option Str) :=
  if m.length < 2 ∨ m.drop (m.length - 2) ≠ c!")\n" then .ok none else do
  let q := m.take (m.length - 2)
  let p ← backParen q q.length
  if (q.drop p).length = 0 then .ok none else
  if p = 0 then .ok none else do
  let c ← rd q (p - 1)
  if c ≠ '(' then .ok none else .ok (some (q.drop p))

/-- The loop over the frames (lib/ruby_stacktrace.c:231-261). -/
def framesLoop : Nat → Str → List RubyFrame → Out (Option (List RubyFrame × Str))
  | 0, _, _ => .ub
  | fuel + 1, s, acc =>
    if peek s = '\x00' then .ok (some (acc, s)) else
    let (k, t) := skipString s c!"\tfrom "
    if k = 0 then .ok none else do
    match ← parseFrame t with
    | none => .ok none
    | some (f, s) =>
      let (newline, s) ← skipChar s '\n'
      if newline = false ∧ peek s ≠ '\x00' then .ok none else framesLoop fuel s (acc ++ [f])

/-- `sr_ruby_stacktrace_parse` (lib/ruby_stacktrace.c:128-270). -/
def parse (inp : Str) : Out (Option (RubyTrace × Str)) := do
  match ← parseFrame inp with
  | none => .ok none
  | some (f, s) =>
    let (k, s) := skipString s c!": "
    if k = 0 then .ok none else do
    let (m, s) ← parseCharCspan s c!"\t"
    match m with
    | none => .ok none
    | some m =>
      match ← exceptionClass m with
      | none => .ok none
      | some name =>
        match ← framesLoop (s.length + 1) s [f] with
        | none => .ok none
        | some (frames, s) => .ok (some (⟨some name, frames⟩, s))

end Satyr.Text.Ruby
