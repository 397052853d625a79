import Verif.Gdb.FunsModel
import Verif.CStr.Scan
/-!
# Model of the list of shared libraries printed by gdb (lib/gdb_sharedlib.c:123-251)
-/
namespace Satyr.Gdb
open Satyr.CStr Satyr.Normalize Satyr.Frames

/-- The checks of `find_sharedlib_section_start` (lib/gdb_sharedlib.c:132-158) at a position where `From` may be: the text
after the header. -/
def headerRest (s : Str) : Option Str :=
  if startsWith s c!"From" then
    let t := skipWs (s.drop 4)
    if startsWith t c!"To" then
      let t := skipWs (t.drop 2)
      if startsWith t c!"Syms Read" then
        let t := skipWs (t.drop 9)
        if startsWith t c!"Shared Object Library\n" then some (t.drop 22) else none
      else none
    else none
  else none

/-- `find_sharedlib_section_start` (lib/gdb_sharedlib.c:123-163): the calls of `strstr` try the positions in order; a position
counts at the beginning of the text and after a newline (`lineStart`). -/
def findSection (lineStart : Bool) : Str → Option Str
  | [] => none
  | c :: s =>
    match (if lineStart then headerRest (c :: s) else none) with
    | some r => some r
    | none => findSection (c == '\n') s

/-- The addresses (lib/gdb_sharedlib.c:182-198): `none` if they cannot be read. -/
def libRange (tmp : Str) : Option (Nat × Nat × Str) :=
  if isSpace (peek tmp) then some (2 ^ 64 - 1, 2 ^ 64 - 1, skipWs tmp)
  else
    match scanHex tmp with
    | none => none
    | some (lo, r) =>
      match scanHex r with
      | none => none
      | some (hi, _) => some (lo, hi, tmp.dropWhile fun c => digits16.contains c || isSpace c || c == 'x')

/-- The symbols (lib/gdb_sharedlib.c:200-218): `SYMS_NOT_FOUND` is 2, `SYMS_OK` is 0, `SYMS_WRONG` is 1. -/
def libSymbols (tmp : Str) : Option (Int × Str) :=
  if startsWith tmp c!"Yes (*)" then some (2, tmp.drop 7)
  else if startsWith tmp c!"Yes" then some (0, tmp.drop 3)
  else if startsWith tmp c!"No" then some (1, tmp.drop 2)
  else none

/-- The loop of `sr_gdb_sharedlib_parse` (lib/gdb_sharedlib.c:177-249). After the name of the library the position moves by one
character even if the text has ended, and the next step reads what is there. Each step consumes a character. -/
def parseLibsLoop : Nat → Str → Out (List Sharedlib)
  | 0, _ => .ok []
  | fuel + 1, tmp =>
    match libRange tmp with
    | none => .ok []
    | some (lo, hi, t) =>
      match libSymbols t with
      | none => .ok []
      | some (symbols, t) => do
        let t := skipWs t
        let name := t.takeWhile fun c => c ≠ '\n'
        let rest ← advance (t.dropWhile fun c => c ≠ '\n')
        return { lo, hi, symbols, soname := some name } :: (← parseLibsLoop fuel rest)

/-- `sr_gdb_sharedlib_parse` (lib/gdb_sharedlib.c:165-251). -/
def parseLibs (input : Str) : Out (List Sharedlib) :=
  match findSection true input with
  | none => .ok []
  | some t => parseLibsLoop (t.length + 1) t

end Satyr.Gdb
