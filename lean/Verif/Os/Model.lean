import Verif.CStr.Idx
/-!
# Model of operating system detection (lib/utils.c, lib/operating_system.c)
-/
namespace Satyr.Os
open Satyr.CStr

/-- `unescape_osinfo_value` (lib/utils.c:633-655). The function is called with source and destination the same; the
destination never overtakes the source, so the result is that of separate buffers. -/
def unescape : Str → Str
  | [] => []
  | '\\' :: s =>
    match s with
    | [] => []
    | c :: s => c :: unescape s
  | c :: s => if c = '\'' ∨ c = '"' then unescape s else c :: unescape s

/-- The code at `skip_line` (lib/utils.c:706-708). -/
def skipLine (cursor : Str) : Str :=
  let rest := cursor.drop (strchrnulI '\n' cursor)
  if rest ≠ [] then rest.drop 1 else rest

/-- The loop of `sr_parse_os_release` (lib/utils.c:657-710); the result is the sequence of calls of the callback. The
fuel is the length of the text: every iteration advances the cursor. -/
def osLoop : Nat → Str → List (Str × Str)
  | 0, _ => []
  | fuel + 1, cursor =>
    if cursor = [] then []
    else if peek cursor = '#' then osLoop fuel (skipLine cursor)
    else
      let keyEnd := strchrnulI '=' cursor
      if keyEnd = cursor.length then []
      else if keyEnd = 0 then osLoop fuel (skipLine cursor)
      else
        let valueEnd := strchrnulI '\n' cursor
        if keyEnd > valueEnd then osLoop fuel (skipLine cursor)
        else
          let key := strndup cursor keyEnd
          let value := unescape (strndup (cursor.drop (keyEnd + 1)) (valueEnd - keyEnd - 1))
          (key, value) :: osLoop fuel (if valueEnd = cursor.length then [] else cursor.drop (valueEnd + 1))

/-- `sr_parse_os_release` (lib/utils.c:657-710). -/
def parseOsRelease (input : Str) : List (Str × Str) := osLoop input.length input

/-- `struct sr_operating_system` (include/operating_system.h). -/
structure OperatingSystem where
  name : Option Str := none
  version : Option Str := none
  architecture : Option Str := none
  cpe : Option Str := none
  desktop : Option Str := none
  variant : Option Str := none
  uptime : Nat := 0
  deriving Repr, DecidableEq

/-- `os_release_callback` (lib/operating_system.c:198-234). -/
def callback (os : OperatingSystem) (key value : Str) : OperatingSystem :=
  if strcmp key c!"ID" = 0 then { os with name := some value }
  else if strcmp key c!"VERSION_ID" = 0 then (if os.version = none then { os with version := some value } else os)
  else if strcmp key c!"VERSION" = 0 ∧ strstrHas value c!"(Rawhide)" = true then { os with version := some c!"rawhide" }
  else if strcmp key c!"CPE_NAME" = 0 then { os with cpe := some value }
  else if strcmp key c!"VARIANT_ID" = 0 then { os with variant := some value }
  else os

/-- `sr_operating_system_parse_etc_os_release` (lib/operating_system.c:236-243). -/
def parseEtcOsRelease (text : Str) (os : OperatingSystem) : Bool × OperatingSystem :=
  let os := (parseOsRelease text).foldl (fun os p => callback os p.1 p.2) os
  (os.name.isSome && os.version.isSome, os)

/-- `tolower` in the C locale. -/
def toLowerC (c : Char) : Char := if 'A' ≤ c ∧ c ≤ 'Z' then Char.ofNat (c.toNat + 32) else c

/-- `strncasecmp (pre, s, strlen (pre)) == 0`. -/
def startsWithNoCase (s pre : Str) : Bool := startsWith (s.map toLowerC) (pre.map toLowerC)

/-- `isdigit` or a dot (lib/operating_system.c:184-185). -/
def versionChar (c : Char) : Bool := c!"0123456789".contains c || c == '.'

/-- The name part (lib/operating_system.c:165-182). -/
def systemName (text : Str) (release : Nat) : Str :=
  if startsWithNoCase text c!"Red Hat Enterprise Linux" then c!"rhel" else (strndup text release).map toLowerC

/-- The version part (lib/operating_system.c:184-194). -/
def systemVersion (versionBegin : Str) : Str :=
  let digits := versionBegin.takeWhile versionChar
  if digits.length = 0 then versionBegin else digits

/-- `sr_operating_system_parse_etc_system_release` (lib/operating_system.c:156-196): name and version, `none` for
failure. On failure for an empty name `*name` is the empty string; it is left out. -/
def parseSystemRelease (text : Str) : Option (Str × Str) :=
  match strstrI c!" release " text with
  | none => none
  | some release =>
    if systemName text release = [] then none
    else some (systemName text release, systemVersion (text.drop (release + c!" release ".length)))

end Satyr.Os
