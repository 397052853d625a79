import Verif.CStr.Scan
import Verif.Json.CoreModel
/-!
# Model of the output of eu-unstrip (lib/unstrip.c) and of core stack traces made from it (lib/core_stacktrace.c:302-379)
-/
namespace Satyr.Unstrip
open Satyr.CStr Satyr.Frames Satyr.Normalize

/-- `struct sr_unstrip_entry` (lib/unstrip.h:36-48) without next. -/
structure Entry where
  start : Nat := 0
  length : Nat := 0
  buildId : Str := []
  fileName : Str := []
  modName : Str := []
  deriving Repr, DecidableEq

/-- C `isxdigit` in the C locale. -/
def isXdigit (c : Char) : Bool := digits16.contains c

/-- `sscanf(line, "0x%lx+0x%lx %n", …)` (lib/unstrip.c:42-43): start, length and the text after them and the white space;
`none` if fewer than two numbers are found. -/
def scanRange (line : Str) : Option (Nat × Nat × Str) :=
  if startsWith line c!"0x" then
    match scanHex (line.drop 2) with
    | none => none
    | some (start, r) =>
      if startsWith r c!"+0x" then
        match scanHex (r.drop 3) with
        | none => none
        | some (length, r2) => some (start, length, skipWs r2)
      else none
  else none

/-- The loop at `eat_line` (lib/unstrip.c:91-93). -/
def eatLine (line : Str) : Str := (line.dropWhile fun c => c ≠ '\n').drop 1

/-- The fields after the numbers (lib/unstrip.c:50-80): the entry and the text after the last field. -/
def parseFields (start length : Nat) (line : Str) : Entry × Str :=
  let l2 := skipWs (skipNonWs (line.dropWhile isXdigit))
  let l3 := skipWs (skipNonWs l2)
  let l4 := skipWs (skipNonWs l3)
  ({ start, length, buildId := line.takeWhile isXdigit, fileName := l2.takeWhile fun c => !isSpace c,
     modName := l4.takeWhile fun c => !isSpace c }, skipNonWs l4)

/-- The loop of `sr_unstrip_parse` (lib/unstrip.c:33-95). Each step consumes a character, so the length of the text bounds the
number of steps. -/
def parseLoop : Nat → Str → List Entry
  | 0, _ => []
  | fuel + 1, line =>
    if line = [] then []
    else
      match scanRange line with
      | none => parseLoop fuel (eatLine line)
      | some (start, length, r) => (parseFields start length r).1 :: parseLoop fuel (eatLine (parseFields start length r).2)

/-- `sr_unstrip_parse` (lib/unstrip.c:28-98). -/
def parse (text : Str) : List Entry := parseLoop (text.length + 1) text

/-- `sr_unstrip_find_address` (lib/unstrip.c:100-114); the sum is computed modulo 2^64. -/
def findAddress (address : Nat) : List Entry → Option Entry
  | [] => none
  | e :: l => if e.start ≤ address ∧ (e.start + e.length) % 2 ^ 64 > address then some e else findAddress address l

/-- The core frame made from a gdb frame (lib/core_stacktrace.c:346-364). -/
def coreFrame (unstrip : List Entry) (f : GdbFrame) : CoreFrame :=
  let c : CoreFrame := { Json.Core.newFrame with address := f.address }
  let c := match findAddress f.address unstrip with
    | none => c
    | some e => { c with buildId := some e.buildId
                         buildIdOffset := (f.address + 2 ^ 64 - e.start) % 2 ^ 64
                         fileName := some e.fileName }
  match f.functionName with
  | none => c
  | some n => if n ≠ c!"??" then { c with functionName := some n } else c

/-- The loop over the frames of a thread (lib/core_stacktrace.c:341-367). The first statement of the body moves to the next
frame, so the frame used is the one after the current one: a null pointer at the end of the list. -/
def createFrames (unstrip : List Entry) : List GdbFrame → Out (List CoreFrame)
  | [] => .ok []
  | _ :: [] => .ub
  | _ :: g :: l => do return coreFrame unstrip g :: (← createFrames unstrip (g :: l))

/-- The loop over the threads (lib/core_stacktrace.c:336-374). The member `id` of a new thread is not initialised
(`sr_core_thread_init`, lib/core_thread.c:66-72) and not set afterwards; it is 0 here. -/
def createThreads (unstrip : List Entry) : List GdbThread → Out (List CoreThread)
  | [] => .ok []
  | t :: l => do
    let frames ← createFrames unstrip t.frames
    return { frames } :: (← createThreads unstrip l)

/-- `sr_core_stacktrace_create` (lib/core_stacktrace.c:302-379) after the gdb stack trace has been parsed: `none` is NULL.
The path of the executable is not used. -/
def create (gdb : GdbTrace) (unstripText : Str) : Out (Option CoreTrace) :=
  if parse unstripText = [] then .ok none
  else do
    let threads ← createThreads (parse unstripText) gdb.threads
    return some { threads }

end Satyr.Unstrip
