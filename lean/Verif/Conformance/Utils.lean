import Verif.CStr.Model
/-!
# The unit tests of the string functions, run on the model

Inputs and expected results are those of tests/utils.c, which the C functions pass. Demangling (tests/utils.c:311-324) is external. The examples
do not prove anything for all inputs; they are evidence that the model is a model of the code.
-/
namespace Satyr.Conformance.Utils
open Satyr.CStr

/-! `test_strchr_location` (tests/utils.c:6-30) -/

example : strchrLocation c!"test string" 'r' = (some c!"ring", ⟨1, 7⟩) := by decide +kernel
example : strchrLocation c!"\ntest\n string" 'r' = (some c!"ring", ⟨3, 3⟩) := by decide +kernel
example : (strchrLocation c!"\ntest\n string" 'z').1 = none := by decide +kernel
example : strchrLocation c!"abcd\nefgh" '\n' = (some c!"\nefgh", ⟨1, 4⟩) := by decide +kernel

/-! `test_strstr_location` (tests/utils.c:33-61) -/

example : strstrLocation c!"test string" c!"ri" = (some c!"ring", ⟨1, 7⟩) := by decide +kernel
example : strstrLocation c!"\ntest\n string" c!"ri" = (some c!"ring", ⟨3, 3⟩) := by decide +kernel
example : (strstrLocation c!"\ntest\n string" c!"rz").1 = none := by decide +kernel
example : (strstrLocation c!"\ntest\n string" c!"zr").1 = none := by decide +kernel
example : strstrLocation c!"abcd\nefgh" c!"\n" = (some c!"\nefgh", ⟨1, 4⟩) := by decide +kernel

/-! `test_strspn_location` (tests/utils.c:64-84) -/

example : strspnLocation c!"test string" c!"tes " = (7, ⟨1, 7⟩) := by decide +kernel
example : strspnLocation c!"te\nst \nstring" c!"tes \n" = (9, ⟨3, 2⟩) := by decide +kernel

/-! `test_skip_char` (tests/utils.c:87-92) -/

example : skipChar c!"abc" 'a' = .ok (true, c!"bc") := by decide +kernel
example : skipChar c!"bc" 'c' = .ok (false, c!"bc") := by decide +kernel

/-! `test_skip_char_limited` (tests/utils.c:95-101) -/

example : skipCharLimited c!"abc" c!"ab" = .ok (true, c!"bc") := by decide +kernel
example : skipCharLimited c!"bc" c!"ab" = .ok (true, c!"c") := by decide +kernel
example : skipCharLimited c!"c" c!"ab" = .ok (false, c!"c") := by decide +kernel

/-! `test_parse_char_limited` (tests/utils.c:104-128) -/

example : parseCharLimited c!"abc" c!"ab" = .ok (some 'a', c!"bc") := by decide +kernel
example : parseCharLimited c!"bc" c!"cd" = .ok (none, c!"bc") := by decide +kernel
example : parseCharLimited c!"bc" c!"ab" = .ok (some 'b', c!"c") := by decide +kernel
example : parseCharLimited c!"c" c!"" = .ok (none, c!"c") := by decide +kernel
example : parseCharLimited c!"c" c!"cdc" = .ok (some 'c', c!"") := by decide +kernel

/-! `test_skip_char_sequence` (tests/utils.c:131-137) -/

example : skipCharSequence c!"aaaaabc" 'a' = .ok (5, c!"bc") := by decide +kernel
example : skipCharSequence c!"bc" 'b' = .ok (1, c!"c") := by decide +kernel
example : skipCharSequence c!"c" 'b' = .ok (0, c!"c") := by decide +kernel

/-! `test_skip_char_span` (tests/utils.c:140-149) -/

example : skipCharSpan c!"aabaabc" c!"ba" = .ok (6, c!"c") := by decide +kernel
example : skipCharSpan c!"c" c!"b" = .ok (0, c!"c") := by decide +kernel
example : skipCharSpan c!"c" c!"bc" = .ok (1, c!"") := by decide +kernel
example : skipCharSpan c!"" c!"abc" = .ok (0, c!"") := by decide +kernel

/-! `test_skip_char_span_location` (tests/utils.c:152-173) -/

example : strspnLocation c!"aab\naabc" c!"ba\n" = (7, ⟨2, 3⟩) := by decide +kernel
example : strspnLocation c!"c" c!"b" = (0, ⟨1, 0⟩) := by decide +kernel
example : strspnLocation c!"c" c!"bc" = (1, ⟨1, 1⟩) := by decide +kernel
example : strspnLocation c!"" c!"abc" = (0, ⟨1, 0⟩) := by decide +kernel

/-! `test_parse_char_span` (tests/utils.c:176-188) -/

example : parseCharSpan c!"abcd" c!"ba" = .ok (some c!"ab", c!"cd") := by decide +kernel
example : parseCharSpan c!"cd" c!"ba" = .ok (none, c!"cd") := by decide +kernel
example : parseCharSpan c!"cd" c!"ecfd" = .ok (some c!"cd", c!"") := by decide +kernel

/-! `test_parse_char_cspan` (tests/utils.c:191-203) -/

example : parseCharCspan c!"abcd" c!"c" = .ok (some c!"ab", c!"cd") := by decide +kernel
example : parseCharCspan c!"cd" c!"c" = .ok (none, c!"cd") := by decide +kernel
example : parseCharCspan c!"cd" c!"e" = .ok (some c!"cd", c!"") := by decide +kernel

/-! `test_skip_string` (tests/utils.c:206-214) -/

example : skipString c!"abcd" c!"ab" = (2, c!"cd") := by decide +kernel
example : skipString c!"cd" c!"cde" = (0, c!"cd") := by decide +kernel
example : skipString c!"cd" c!"cd" = (2, c!"") := by decide +kernel
example : skipString c!"" c!"cd" = (0, c!"") := by decide +kernel

/-! `test_parse_string` (tests/utils.c:217-225) -/

example : parseString c!"abcd" c!"ab" = (some c!"ab", c!"cd") := by decide +kernel

/-! `test_skip_uint` (tests/utils.c:228-233) -/

example : skipCharSpan c!"10" digits10 = .ok (2, c!"") := by decide +kernel

/-! `test_parse_uint32` (tests/utils.c:236-243) -/

example : parseUint32 c!"10" = .ok (2, some 10, c!"") := by decide +kernel

/-! `test_skip_hexadecimal_0xuint` (tests/utils.c:246-251) -/

example : skipHex0xUint c!"0xffddffddff" = .ok (12, c!"") := by decide +kernel

/-! `test_parse_hexadecimal_0xuint64` (tests/utils.c:254-265) -/

example : parseHex0xUint64 c!"0x0fafaffff 0x2badf00dbaadf00d" = .ok (11, some 0xfafaffff, c!" 0x2badf00dbaadf00d") := by decide +kernel
example : parseHex0xUint64 c!"0x2badf00dbaadf00d" = .ok (18, some 0x2badf00dbaadf00d, c!"") := by decide +kernel

/-! `test_indent` (tests/utils.c:268-276) -/

example : indent 2 c!"text" = c!"  text" := by decide +kernel
example : indent 2 c!"text\n" = c!"  text\n" := by decide +kernel
example : indent 2 c!"text\n\n" = c!"  text\n  \n" := by decide +kernel

/-! `test_struniq` (tests/utils.c:294-308) -/

example : struniq ([] : List Str) = [] := by decide +kernel
example : struniq [c!"a"] = [c!"a"] := by decide +kernel
example : struniq [c!"a", c!"a"] = [c!"a"] := by decide +kernel
example : struniq [c!"a", c!"b"] = [c!"a", c!"b"] := by decide +kernel

end Satyr.Conformance.Utils
