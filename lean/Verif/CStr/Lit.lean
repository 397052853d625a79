/-!
# Literals of C strings

`c!"abc"` stands for the explicit list `['a', 'b', 'c']`, which the kernel compares without decoding a string.
-/
namespace Satyr

open Lean in
/-- The list of the characters of a string literal. -/
macro:max "c!" s:str : term => do
  let cs := s.getString.toList.map fun c => Syntax.mkCharLit c
  `([$(cs.toArray),*])

example : c!"ab" = ['a', 'b'] := rfl
example : c!"" = ([] : List Char) := rfl

end Satyr
