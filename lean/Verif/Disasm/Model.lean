import Verif.CStr.Scan
/-!
# Model of the analysis of disassembled instructions (lib/disasm.c)
-/
namespace Satyr.Disasm
open Satyr.CStr

/-- `sr_disasm_instruction_is_one_of` (lib/disasm.c:76-93). The character of the mnemonic at its own length is always the null
character, so the second condition is always met. -/
def isOneOf (instruction : Str) : List Str → Bool
  | [] => false
  | m :: l => if startsWith instruction m then true else isOneOf instruction l

/-- `sr_disasm_instruction_present` (lib/disasm.c:95-111). -/
def present (mnemonics : List Str) : List Str → Bool
  | [] => false
  | i :: l => if isOneOf i mnemonics then true else present mnemonics l

/-- `sr_disasm_instruction_parse_single_address_operand` (lib/disasm.c:113-138). -/
def singleAddress (instruction : Str) : Option Nat :=
  match scanHex (skipWs (skipNonWs instruction)) with
  | none => none
  | some (addr, r) => if skipWs r ≠ [] then none else some addr

/-- `call_mnems` (lib/disasm.c:143-144). -/
def callMnems : List Str := [c!"call", c!"callb", c!"callw", c!"calll", c!"callq"]

/-- The test of both loops (lib/disasm.c:150-157, 168-172). -/
def callee (instruction : Str) : Option Nat :=
  if isOneOf instruction callMnems then singleAddress instruction else none

/-- The first loop (lib/disasm.c:146-160): `result_size`. -/
def countCalls : List Str → Nat
  | [] => 0
  | i :: l => (if callee i ≠ none then 1 else 0) + countCalls l

/-- Storing an address after the `l` addresses in an array of `size` bytes: outside of the array it is undefined. -/
def store (size : Nat) (l : List Nat) (address : Nat) : Out (List Nat) :=
  if 8 * (l.length + 1) ≤ size then .ok (l ++ [address]) else .ub

/-- The second loop (lib/disasm.c:165-191); the array holds `acc`. -/
def fill (size : Nat) (acc : List Nat) : List Str → Out (List Nat)
  | [] => .ok acc
  | i :: l =>
    match callee i with
    | none => fill size acc l
    | some a => if a ∈ acc then fill size acc l else (store size acc a).bind fun acc => fill size acc l

/-- `sr_disasm_get_callee_addresses` (lib/disasm.c:140-195): the contents of the array, which has `result_size * 8 + 1` bytes. -/
def calleeAddresses (instructions : List Str) : Out (List Nat) := do
  let size := countCalls instructions * 8 + 1
  let l ← fill size [] instructions
  store size l 0

/-- `sr_disasm_instructions_to_text` (lib/disasm.c:197-209). -/
def toText : List Str → Str
  | [] => []
  | i :: l => i ++ '\n' :: toText l

end Satyr.Disasm
