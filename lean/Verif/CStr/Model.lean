import Verif.Base
import Verif.CStr.Lit
/-!
# Model of the string utilities (lib/utils.c, lib/location.c)

A C string is the list of its characters without the terminating NUL; one `Char` stands for one byte. A pointer
into a string is the suffix it points to. Reading through a pointer at the end gives the terminator `'\0'`;
moving a pointer beyond the terminator is undefined behaviour (`Out.ub`). `int` counters are unbounded.
-/
namespace Satyr.CStr

/-- C strings. -/
abbrev Str := List Char

/-- A C string cannot contain NUL. -/
def NoNul (s : Str) : Prop := '\x00' ∉ s

instance (s : Str) : Decidable (NoNul s) := by unfold NoNul; infer_instance

/-- `*s`. -/
def peek (s : Str) : Char := s.headD '\x00'

/-- `++s`. -/
def advance : Str → Out Str
  | [] => .ub
  | _ :: t => .ok t

/-- `strchr(set, c) != NULL`; the terminator counts as a member of every string. -/
def strchrHas (set : Str) (c : Char) : Bool := c == '\x00' || set.contains c

/-- `strspn`. -/
def strspn (s accept : Str) : Nat := (s.takeWhile fun c => accept.contains c).length

/-- `strcspn`. -/
def strcspn (s reject : Str) : Nat := (s.takeWhile fun c => !reject.contains c).length

/-- `s += n`; undefined behaviour when that leaves the string. -/
def advanceBy (s : Str) (n : Nat) : Out Str := if n ≤ s.length then .ok (s.drop n) else .ub

/-- `strndup(s, n)`. -/
def strndup (s : Str) (n : Nat) : Str := s.take n

/-- `sr_skip_char` (lib/utils.c:251-258). -/
def skipChar (s : Str) (c : Char) : Out (Bool × Str) :=
  if peek s ≠ c then .ok (false, s) else do
  let s ← advance s
  .ok (true, s)

/-- `sr_skip_char_limited` (lib/utils.c:260-267). -/
def skipCharLimited (s allowed : Str) : Out (Bool × Str) :=
  if strchrHas allowed (peek s) = false then .ok (false, s) else do
  let s ← advance s
  .ok (true, s)

/-- `sr_parse_char_limited` (lib/utils.c:269-279). -/
def parseCharLimited (s allowed : Str) : Out (Option Char × Str) :=
  if peek s = '\x00' then .ok (none, s)
  else if strchrHas allowed (peek s) = false then .ok (none, s)
  else do
    let t ← advance s
    .ok (some (peek s), t)

/-- `sr_skip_char_sequence` (lib/utils.c:281-291): the loop ends at the latest when the pointer is beyond the
terminator, where the outcome is `ub`; hence the fuel `length + 1` suffices. -/
def skipCharSequence (s : Str) (c : Char) : Out (Nat × Str) := go (s.length + 1) s 0
where
  go : Nat → Str → Nat → Out (Nat × Str)
    | 0, s, n => .ok (n, s)
    | fuel + 1, s, n => do
      let r ← skipChar s c
      if r.1 then go fuel r.2 (n + 1) else .ok (n, r.2)

/-- `sr_skip_char_span` (lib/utils.c:293-301). -/
def skipCharSpan (s chars : Str) : Out (Nat × Str) :=
  let count := strspn s chars
  if count = 0 then .ok (0, s) else do
  let s ← advanceBy s count
  .ok (count, s)

/-- `sr_parse_char_span` (lib/utils.c:316-325); `none` is the return value 0. -/
def parseCharSpan (s accept : Str) : Out (Option Str × Str) :=
  let count := strspn s accept
  if count = 0 then .ok (none, s) else do
  let t ← advanceBy s count
  .ok (some (strndup s count), t)

/-- `sr_skip_char_cspan` (lib/utils.c:327-335). -/
def skipCharCspan (s reject : Str) : Out (Nat × Str) :=
  let count := strcspn s reject
  if count = 0 then .ok (0, s) else do
  let s ← advanceBy s count
  .ok (count, s)

/-- `sr_parse_char_cspan` (lib/utils.c:337-346). -/
def parseCharCspan (s reject : Str) : Out (Option Str × Str) :=
  let count := strcspn s reject
  if count = 0 then .ok (none, s) else do
  let t ← advanceBy s count
  .ok (some (strndup s count), t)

/-- The comparison loop of `sr_skip_string` and `sr_parse_string` (lib/utils.c:353-357, 370-374): returns the two
advanced pointers. -/
def matchLoop : Str → Str → Str × Str
  | c :: s, d :: t => if c = d then matchLoop s t else (c :: s, d :: t)
  | s, t => (s, t)

/-- `sr_skip_string` (lib/utils.c:348-363). -/
def skipString (s string : Str) : Nat × Str :=
  let r := matchLoop s string
  if r.2 ≠ [] then (0, s) else (s.length - r.1.length, r.1)

/-- `sr_parse_string` (lib/utils.c:365-380). -/
def parseString (s string : Str) : Option Str × Str :=
  let r := matchLoop s string
  if r.2 ≠ [] then (none, s) else (some (strndup string (s.length - r.1.length)), r.1)

/-- `sr_parse_digit` (lib/utils.c:382-390). -/
def parseDigit (s : Str) : Out (Char × Str) :=
  let digit := peek s
  if digit < '0' ∨ digit > '9' then .ok ('\x00', s) else do
  let s ← advance s
  .ok (digit, s)

/-- The digits used by the scanners. -/
def digits10 : Str := c!"0123456789"
/-- The digits used by the hexadecimal scanners. -/
def digits16 : Str := c!"abcdefABCDEF0123456789"

/-- Value of a digit character. -/
def digitVal (c : Char) : Nat :=
  if '0' ≤ c ∧ c ≤ '9' then c.toNat - 48
  else if 'a' ≤ c ∧ c ≤ 'z' then c.toNat - 87
  else if 'A' ≤ c ∧ c ≤ 'Z' then c.toNat - 55
  else 99

/-- C `isspace` in the C locale. -/
def isSpace (c : Char) : Bool := c!" \t\r\n\x0b\x0c".contains c

/-- `ULLONG_MAX`. -/
def ullMax : Nat := 2 ^ 64 - 1

/-- Result of `strtoul`/`strtoull` (64-bit `unsigned long`). -/
structure Strtoull where
  value : Nat
  errno : Bool
  noConversion : Bool
  rest : Str
  deriving Repr, DecidableEq

/-- Value of a string of digits. -/
def ofDigits (base : Nat) (ds : Str) : Nat := ds.foldl (fun n c => n * base + digitVal c) 0

/-- The C library function `strtoull` for bases 10 and 16: white space, sign, optional `0x` in base 16, maximal run
of digits; values above `ULLONG_MAX` are clamped and set `errno`; a minus sign negates modulo 2^64. -/
def strtoull (base : Nat) (s : Str) : Strtoull :=
  let s1 := s.dropWhile isSpace
  let neg := peek s1 == '-'
  let s2 := if peek s1 == '-' || peek s1 == '+' then s1.tail else s1
  let s3 := if base = 16 ∧ peek s2 = '0' ∧ (peek s2.tail = 'x' ∨ peek s2.tail = 'X') ∧ digitVal (peek s2.tail.tail) < 16
    then s2.tail.tail else s2
  let ds := s3.takeWhile fun c => decide (digitVal c < base)
  let rest := s3.dropWhile fun c => decide (digitVal c < base)
  if ds = [] then { value := 0, errno := false, noConversion := true, rest := s }
  else
    let v := ofDigits base ds
    if v > ullMax then { value := ullMax, errno := true, noConversion := false, rest }
    else { value := if neg then (2 ^ 64 - v) % 2 ^ 64 else v, errno := false, noConversion := false, rest }

/-- `sr_parse_uint32` (lib/utils.c:398-423): return value, stored result (if any), new input. -/
def parseUint32 (s : Str) : Out (Nat × Option Nat × Str) := do
  let (num, local_) ← parseCharSpan s digits10
  match num with
  | none => .ok (0, none, s)
  | some numstr =>
    let r := strtoull 10 numstr
    if r.errno || r.noConversion || r.rest ≠ [] || r.value > 2 ^ 32 - 1 then .ok (0, none, s)
    else .ok (numstr.length, some r.value, local_)

/-- `sr_parse_uint64` (lib/utils.c:425-447). -/
def parseUint64 (s : Str) : Out (Nat × Option Nat × Str) := do
  let (num, local_) ← parseCharSpan s digits10
  match num with
  | none => .ok (0, none, s)
  | some numstr =>
    let r := strtoull 10 numstr
    if r.errno || r.noConversion || r.rest ≠ [] || r.value = 2 ^ 64 - 1 then .ok (0, none, s)
    else .ok (numstr.length, some r.value, local_)

/-- `sr_parse_hexadecimal_uint64` (lib/utils.c:474-497). -/
def parseHexUint64 (s : Str) : Out (Nat × Option Nat × Str) := do
  let (num, local_) ← parseCharSpan s digits16
  match num with
  | none => .ok (0, none, s)
  | some numstr =>
    let r := strtoull 16 numstr
    if r.errno || r.noConversion || r.rest ≠ [] then .ok (0, none, s)
    else .ok (numstr.length, some r.value, local_)

/-- `sr_parse_hexadecimal_0xuint64` (lib/utils.c:499-516). -/
def parseHex0xUint64 (s : Str) : Out (Nat × Option Nat × Str) := do
  let (ok1, l) ← skipChar s '0'
  if !ok1 then .ok (0, none, s) else do
  let (ok2, l) ← skipChar l 'x'
  if !ok2 then .ok (0, none, s) else do
  let (n, r, l) ← parseHexUint64 l
  if 2 + n = 2 then .ok (0, r, s) else .ok (2 + n, r, l)

/-- `sr_skip_hexadecimal_0xuint` (lib/utils.c:455-472). -/
def skipHex0xUint (s : Str) : Out (Nat × Str) := do
  let (ok1, l) ← skipChar s '0'
  if !ok1 then .ok (0, s) else do
  let (ok2, l) ← skipChar l 'x'
  if !ok2 then .ok (0, s) else do
  let (n, l) ← skipCharSpan l digits16
  if 2 + n = 2 then .ok (0, s) else .ok (2 + n, l)

/-! ## Locations -/

/-- `struct sr_location` without the message. -/
structure Loc where
  line : Int
  column : Int
  deriving Repr, DecidableEq

/-- `sr_location_init` (lib/location.c:25-31). -/
def Loc.init : Loc := ⟨1, 0⟩

/-- `sr_location_add_ext` (lib/location.c:82-95). -/
def Loc.add (l : Loc) (addLine addColumn : Int) : Loc :=
  if addLine > 1 then ⟨l.line + (addLine - 1), addColumn⟩ else ⟨l.line, l.column + addColumn⟩

/-- `sr_location_eat_char_ext` (lib/location.c:106-118). -/
def Loc.eat (l : Loc) (c : Char) : Loc := if c = '\n' then ⟨l.line + 1, 0⟩ else ⟨l.line, l.column + 1⟩

/-- Loop of `sr_strchr_location` (lib/utils.c:97-101): where it stops and the location there. -/
def strchrLoop (c : Char) : Str → Loc → Str × Loc
  | [], l => ([], l)
  | x :: s, l => if x = c then (x :: s, l) else strchrLoop c s (l.eat x)

/-- `sr_strchr_location` (lib/utils.c:88-103); `none` is NULL. -/
def strchrLocation (s : Str) (c : Char) : Option Str × Loc :=
  let r := strchrLoop c s Loc.init
  (if peek r.1 = c then some r.1 else none, r.2)

/-- `strncmp(h, n, strlen(n)) == 0`. -/
def startsWith (h n : Str) : Bool := n.isPrefixOf h

/-- Loop of `sr_strstr_location` (lib/utils.c:120-130). Every iteration moves forward by at least one character, so
`length + 1` iterations suffice. -/
def strstrLoop (needle : Str) : Nat → Str → Loc → Option Str × Loc
  | 0, _, l => (none, l)
  | fuel + 1, h, l =>
    match strchrLocation h (peek needle) with
    | (none, _) => (none, l)
    | (some h', cl) =>
      let l := l.add cl.line cl.column
      if startsWith h' needle then (some h', l)
      else strstrLoop needle fuel h'.tail (l.eat (peek h'))

/-- `sr_strstr_location` (lib/utils.c:105-131). -/
def strstrLocation (h needle : Str) : Option Str × Loc :=
  if peek needle = '\x00' then (some h, Loc.init)
  else strstrLoop needle (h.length + 1) h Loc.init

/-- `sr_strspn_location` (lib/utils.c:133-150). -/
def strspnLocation (s accept : Str) : Nat × Loc := go s 0 Loc.init
where
  go : Str → Nat → Loc → Nat × Loc
    | [], n, l => (n, l)
    | c :: s, n, l => if strchrHas accept c = false then (n, l) else go s (n + 1) (l.eat c)

/-- `sr_skip_to_next_line_location` (lib/utils.c:537-551). -/
def skipToNextLine (s : Str) (l : Loc) : Out (Bool × Str × Loc) := do
  let (n, s) ← skipCharCspan s ['\n']
  let l : Loc := ⟨l.line, l.column + n⟩
  if peek s = '\n' then do
    let s ← advance s
    .ok (true, s, ⟨l.line + 1, 0⟩)
  else .ok (false, s, l)

/-! ## Indentation -/

/-- `for (int i = 0; i < spaces; ++i) append ' '`. -/
def blanks (spaces : Int) : Str := List.replicate spaces.toNat ' '

/-- `sr_indent_except_first_line` (lib/utils.c:585-611). -/
def indentExceptFirst (spaces : Int) : Str → Str
  | [] => []
  | '\n' :: rest => '\n' :: ((if rest ≠ [] then blanks spaces else []) ++ indentExceptFirst spaces rest)
  | c :: rest => c :: indentExceptFirst spaces rest

/-- `sr_indent` (lib/utils.c:568-583). -/
def indent (spaces : Int) (s : Str) : Str :=
  (if s ≠ [] then blanks spaces else []) ++ indentExceptFirst spaces s

/-! ## bin2hex -/

/-- `hexdigits_locase` (lib/utils.c:47). -/
def hexdigits : Str := c!"0123456789abcdef"

/-- `sr_bin2hex` (lib/utils.c:553-566): the characters written to `dst`. -/
def bin2hex : List UInt8 → Str
  | [] => []
  | c :: rest => hexdigits.getD (c >>> 4).toNat '?' :: hexdigits.getD (c &&& 0xf).toNat '?' :: bin2hex rest

/-! ## Path anonymization -/

/-- `strchr(s, c)` for `c` other than NUL. -/
def strchr (s : Str) (c : Char) : Option Str :=
  match s with
  | [] => none
  | x :: t => if x = c then some (x :: t) else strchr t c

/-- `anonymize_path` (lib/utils.c:730-748), on a non-NULL path. -/
def anonymizePath (p : Str) : Str :=
  if startsWith p c!"/home/" then
    match strchr (p.drop 6) '/' with
    | some rest => c!"/home/anonymized" ++ rest
    | none => p
  else p

/-! ## struniq -/

/-- Loop of `sr_struniq` (lib/utils.c:70-79), `loop` counting down; deleting shifts the rest to the left. -/
def struniqLoop {S : Type} [DecidableEq S] : Nat → List S → List S
  | 0, l => l
  | k + 1, l => struniqLoop k (if l[k + 1]? = l[k]? then l.eraseIdx (k + 1) else l)

/-- `sr_struniq` (lib/utils.c:64-80). -/
def struniq {S : Type} [DecidableEq S] (l : List S) : List S :=
  if l.length < 1 then l else struniqLoop (l.length - 1) l

/-- Decimal representation of a number, `printf("%u")`. -/
def natDec (n : Nat) : Str :=
  if _h : n < 10 then [Char.ofNat (48 + n)] else natDec (n / 10) ++ [Char.ofNat (48 + n % 10)]
termination_by n

/-- Hexadecimal representation of a number, `printf("%x")`. -/
def natHex (n : Nat) : Str :=
  if _h : n < 16 then [hexdigits.getD n '?'] else natHex (n / 16) ++ [hexdigits.getD (n % 16) '?']
termination_by n

end Satyr.CStr
