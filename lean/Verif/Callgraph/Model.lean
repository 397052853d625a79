import Verif.Elf.Model
import Verif.Disasm.Model
/-!
# Model of call graphs (lib/callgraph.c)
-/
namespace Satyr.Callgraph
open Satyr.CStr Satyr.Elf Satyr.Disasm

/-- `struct sr_callgraph` (lib/callgraph.h:52-71): a node. The callees include the terminating zero. -/
structure Node where
  address : Nat
  callees : List Nat
  deriving DecidableEq, Repr

/-- The disassembler: the instructions of the function at an address with a size, or an error message
(`sr_disasm_get_function_instructions`, lib/disasm.c:53-61, always fails in this version of the source, which has no disassembler; the
functions here are modelled for any disassembler). -/
abbrev Disassembler := Nat → Nat → Except Str (List Str)

/-- `sr_callgraph_find` (lib/callgraph.c:158-171). -/
def find (address : Nat) : List Node → Option Node
  | [] => none
  | n :: g => if n.address = address then some n else find address g

/-- The loop of `sr_callgraph_compute` (lib/callgraph.c:34-65); `acc` is the graph so far. -/
def computeFrom (dis : Disassembler) (acc : List Node) : List Fde → Out (Except Str (List Node))
  | [] => .ok (.ok acc)
  | d :: l =>
    match dis d.start d.length with
    | .error e => .ok (.error e)
    | .ok instructions => do
      let callees ← calleeAddresses instructions
      computeFrom dis (acc ++ [{ address := d.start, callees := callees }]) l

/-- `sr_callgraph_compute` (lib/callgraph.c:27-68): failure is `.error` with the error message; the empty graph is NULL. -/
def compute (dis : Disassembler) (fdes : List Fde) : Out (Except Str (List Node)) := computeFrom dis [] fdes

/-- The message if there is no function at an address (lib/callgraph.c:87-89). -/
def noFde (address : Nat) : Str := c!"Unable to find FDE for address 0x" ++ natHex address

/-- The loop over the callees (lib/callgraph.c:121-141), `extend` being the recursive call: a failure is forgotten, and so is
its message. `message` is `*error_message`. -/
def extendAll (extend : List Node → Nat → Out (Option (List Node) × Option Str)) : List Node → Option Str → List Nat →
    Out (List Node × Option Str)
  | g, message, [] => .ok (g, message)
  | g, message, a :: l =>
    (extend g a).bind fun
      | (some g, m) => extendAll extend g (m.or message) l
      | (none, _) => extendAll extend g none l

/-- `sr_callgraph_extend` (lib/callgraph.c:70-143): the new graph, or `none` for NULL, and the message that is set, if any.
`n` bounds the depth of the recursion; a deeper recursion counts as undefined. The graph that is handed in is changed in place:
it is a beginning of the graph returned. -/
def extend (dis : Disassembler) (fdes : List Fde) : Nat → List Node → Nat → Out (Option (List Node) × Option Str)
  | 0, _, _ => .ub
  | n + 1, g, a =>
    if (find a g).isSome then .ok (some g, none)
    else
      match findStart a fdes with
      | none => .ok (none, some (noFde a))
      | some d =>
        match dis ((d.execBase + d.start) % 2 ^ 64) d.length with
        | .error e => .ok (none, some e)
        | .ok instructions => do
          let callees ← calleeAddresses instructions
          let node : Node := { address := (d.execBase + d.start) % 2 ^ 64, callees := callees }
          let r ← extendAll (extend dis fdes n) (g ++ [node]) none (callees.takeWhile (· ≠ 0))
          .ok (some r.1, r.2)

/-- `sr_callgraph_extend` with enough depth. -/
def grow (dis : Disassembler) (fdes : List Fde) (g : List Node) (a : Nat) : Out (Option (List Node) × Option Str) :=
  extend dis fdes (fdes.length + 1) g a

end Satyr.Callgraph
