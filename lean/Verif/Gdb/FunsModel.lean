import Verif.CStr.Idx
import Verif.Frames.Traces
/-!
# Model of the function lists and library names of threads (lib/gdb_thread.c:464-554)
-/
namespace Satyr.Gdb
open Satyr.CStr Satyr.Normalize Satyr.Frames

/-- `sr_gdb_frame_init` (lib/gdb_frame.c:75-88). -/
def newFrame : GdbFrame := { sourceLine := 2 ^ 32 - 1, address := 2 ^ 64 - 1 }

/-- `sr_gdb_thread_init` (lib/gdb_thread.c:73-81). -/
def newThread : GdbThread := { number := 2 ^ 32 - 1, tid := 2 ^ 32 - 1 }

/-- The loop searching the last space before the newline (lib/gdb_thread.c:479-483), as a position in `input`; `c` and
`libname` are the variables of the loop. Each step moves `c` forward, so the length of the input bounds their number. -/
def lastSpace (input : Str) (next : Nat) : Nat → Nat → Nat → Nat
  | 0, _, libname => libname
  | fuel + 1, c, libname =>
    match strchrI ' ' (input.drop (c + 1)) with
    | none => libname
    | some k => if c + 1 + k > next then libname else lastSpace input next fuel (c + 1 + k) (c + 1 + k)

/-- A frame made from a line that ends at `next` (lib/gdb_thread.c:485-489). -/
def funFrame (input : Str) (next number : Nat) : GdbFrame :=
  let libname := lastSpace input next input.length 0 next
  { newFrame with
    functionName := some (strndup input libname)
    libraryName := if libname + 1 < next then some (strndup (input.drop (libname + 1)) (next - libname - 1)) else none
    number }

/-- The loop of `sr_gdb_thread_parse_funs` (lib/gdb_thread.c:472-494). -/
def parseFunsLoop : Nat → Nat → Str → List GdbFrame
  | 0, _, _ => []
  | fuel + 1, number, input =>
    if input = [] then []
    else
      match strchrI '\n' (input.drop 1) with
      | none => []
      | some k => funFrame input (k + 1) number :: parseFunsLoop fuel (number + 1) (input.drop (k + 2))

/-- `sr_gdb_thread_parse_funs` (lib/gdb_thread.c:464-497). -/
def parseFuns (input : Str) : GdbThread := { newThread with frames := parseFunsLoop (input.length + 1) 0 input }

/-- What is written for a frame (lib/gdb_thread.c:507-516). -/
def formatFun (f : GdbFrame) : Str :=
  match f.functionName with
  | none => []
  | some n =>
    match f.libraryName with
    | none => n ++ ['\n']
    | some l => n ++ ' ' :: l ++ ['\n']

/-- `sr_gdb_thread_format_funs` (lib/gdb_thread.c:499-522). -/
def formatFuns (t : GdbThread) : Str := t.frames.flatMap formatFun

/-- `sr_gdb_sharedlib_find_address` (lib/gdb_sharedlib.c:103-121): the loop. -/
def findLibLoop (address : Nat) : List Sharedlib → Option Sharedlib
  | [] => none
  | l :: rest => if address ≥ l.lo ∧ address ≤ l.hi then some l else findLibLoop address rest

/-- `sr_gdb_sharedlib_find_address` (lib/gdb_sharedlib.c:103-121). -/
def findLib (libs : List Sharedlib) (address : Nat) : Option Sharedlib :=
  if address = 2 ^ 64 - 1 then none else findLibLoop address libs

/-- The name of a library without directory (lib/gdb_thread.c:536-541). -/
def baseName (soname : Str) : Str :=
  match strrchrI '/' soname with
  | none => soname
  | some i => soname.drop (i + 1)

/-- The name of a library without directory and version (lib/gdb_thread.c:536-549). -/
def shortName (soname : Str) : Str :=
  match strstrI c!".so" (baseName soname) with
  | none => baseName soname
  | some i => strndup (baseName soname) (i + 3)

/-- `sr_gdb_thread_set_libnames` (lib/gdb_thread.c:524-554). A library without a name makes `strrchr` read a null pointer. -/
def setLibnames (libs : List Sharedlib) : List GdbFrame → Out (List GdbFrame)
  | [] => .ok []
  | f :: fs =>
    match findLib libs f.address with
    | none => do return f :: (← setLibnames libs fs)
    | some l =>
      match l.soname with
      | none => .ub
      | some n => do return { f with libraryName := some (shortName n) } :: (← setLibnames libs fs)

end Satyr.Gdb
