import Verif.CStr.Model
import Mathlib.Data.Nat.Digits.Defs
/-!
# Specification vocabulary for the string utilities
-/
namespace Satyr.CStr

/-- Decimal digit. -/
def IsDec (c : Char) : Bool := c!"0123456789".contains c

/-- Hexadecimal digit, either case. -/
def IsHex (c : Char) : Bool := c!"0123456789abcdef".contains c.toLower

/-- Number written by decimal digits, most significant first. -/
def decValue (ds : Str) : Nat := Nat.ofDigits 10 (ds.reverse.map fun c => c!"0123456789".idxOf c)

/-- Number written by hexadecimal digits, most significant first. -/
def hexValue (ds : Str) : Nat := Nat.ofDigits 16 (ds.reverse.map fun c => c!"0123456789abcdef".idxOf c.toLower)

/-- Location (line from 1, column from 0) right after the text `p`. -/
def locOf (p : Str) : Loc := ⟨1 + p.count '\n', (p.reverse.takeWhile fun c => c ≠ '\n').length⟩

/-- A text made of the line `l0` and further lines. -/
def joinLines (l0 : Str) (ls : List Str) : Str := l0 ++ ls.flatMap fun l => '\n' :: l

/-- Lines with every line prefixed by `n` blanks, except that nothing is put before the end of the text. -/
def padLines (n : Nat) : List Str → List Str
  | [] => []
  | [l] => [if l = [] then [] else List.replicate n ' ' ++ l]
  | l :: ls => (List.replicate n ' ' ++ l) :: padLines n ls

/-- Decoder for pairs of lower-case hex digits. -/
def unhex : Str → Option (List UInt8)
  | [] => some []
  | a :: b :: rest =>
    if c!"0123456789abcdef".contains a && c!"0123456789abcdef".contains b then
      (unhex rest).map fun l => UInt8.ofNat (c!"0123456789abcdef".idxOf a * 16 + c!"0123456789abcdef".idxOf b) :: l
    else none
  | [_] => none

end Satyr.CStr
