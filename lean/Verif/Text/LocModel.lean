import Verif.CStr.Model
/-!
# Model of the text of a location (lib/location.c)
-/
namespace Satyr.CStr

/-- `printf("%d")`. -/
def intDec (n : Int) : Str := if n < 0 then '-' :: natDec n.natAbs else natDec n.natAbs

/-- `sr_location_to_string` (lib/location.c:52-68). -/
def Loc.text (l : Loc) (message : Option Str) : Str :=
  c!"Line " ++ intDec l.line ++ c!", column " ++ intDec l.column ++
    match message with
    | none => []
    | some m => c!": " ++ m

/-- `sr_location_cmp` (lib/location.c:33-50) without the comparison of messages; the differences of locations in texts are
those of small numbers, so they do not overflow. -/
def Loc.cmp (a b : Loc) : Int := if a.line - b.line ≠ 0 then a.line - b.line else a.column - b.column

end Satyr.CStr
