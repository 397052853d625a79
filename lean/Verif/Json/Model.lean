import Verif.Json.Text
import Verif.Frames.Traces
/-!
# Model of the JSON utilities (lib/json_utils.c)
-/
namespace Satyr.Json
open Satyr.CStr

/-! ## Writing -/

/-- `sr_json_escape` (lib/json_utils.c:69-107). -/
def escape : Str → Str
  | [] => []
  | c :: s =>
    (if c = '"' then c!"\\\""
     else if c = '\n' then c!"\\n"
     else if c = '\\' then c!"\\\\"
     else if c = '\r' then c!"\\r"
     else if c = '\x0c' then c!"\\f"
     else if c = '\x08' then c!"\\b"
     else if c = '\t' then c!"\\t"
     else [c]) ++ escape s

/-- `sr_json_append_escaped` (lib/json_utils.c:109-119): the text that is appended. -/
def escaped (s : Str) : Str := '"' :: (escape s ++ ['"'])

/-- `if (p) { append(name); sr_json_append_escaped(p); append("\n"); }`, the way all writers write an optional string. -/
def strMember (name : Str) : Option Str → Str
  | none => []
  | some s => name ++ (escaped s ++ c!"\n")

/-- `append_printf(name "%u\n")`, the way all writers write a number. -/
def numMember (name : Str) (n : Nat) : Str := name ++ (natDec n ++ c!"\n")

/-- `strbuf->str[0] = '{'; append_c('}')`, the way most writers finish an object. On an empty buffer the assignment hits the
terminator, which the following append overwrites. -/
def finishObject (body : Str) : Str := (if body = [] then [] else '{' :: body.drop 1) ++ ['}']

/-- The loop that writes an array of items between `head`, `"      , "` and `" ]\n"` (for instance
lib/core_thread.c:240-258): every item is indented by 8 and all but the last are followed by a newline. -/
def itemsText (head : Str) : List Str → Str
  | [] => []
  | [x] => head ++ indentExceptFirst 8 x
  | x :: y :: l => head ++ (indentExceptFirst 8 x ++ '\n' :: itemsText c!"      , " (y :: l))

/-- The array of items with its closing bracket; for no items only the bracket is written. -/
def arrayText (items : List Str) : Str := itemsText c!"      [ " items ++ c!" ]\n"

/-! ## Reading -/

/-- `json_object_object_get_ex`: the last member of that name. -/
def get (j : Value) (key : Str) : Option Value :=
  match j with
  | .obj l => (l.reverse.find? fun m => m.1 == key).map Prod.snd
  | _ => none

/-- `json_object_get_int64` saturates at the limits of `int64_t`. -/
def clamp64 (n : Int) : Int := max (min n (2 ^ 63 - 1)) (-2 ^ 63)

/-- `json_object_get_int` saturates at the limits of `int32_t`. -/
def clamp32 (n : Int) : Int := max (min n (2 ^ 31 - 1)) (-2 ^ 31)

/-- The conversion of a signed number to an unsigned type. -/
def toUnsigned (bits : Nat) (n : Int) : Nat := (n % 2 ^ bits).toNat

/-- `json_read_uint64` (lib/json_utils.c:21-41): `none` is the return value `false`. -/
def readU64 (j : Value) (key : Str) (dest : Nat) : Option Nat :=
  match get j key with
  | none => some dest
  | some (.num n) => some (toUnsigned 64 (clamp64 n))
  | some _ => none

/-- `json_read_uint32` (lib/json_utils.c:21-42). -/
def readU32 (j : Value) (key : Str) (dest : Nat) : Option Nat :=
  match get j key with
  | none => some dest
  | some (.num n) => some (toUnsigned 32 (clamp32 n))
  | some _ => none

/-- `json_read_uint16` (lib/json_utils.c:21-43). -/
def readU16 (j : Value) (key : Str) (dest : Nat) : Option Nat :=
  match get j key with
  | none => some dest
  | some (.num n) => some (toUnsigned 16 (clamp32 n))
  | some _ => none

/-- `json_read_string` (lib/json_utils.c:21-44). -/
def readStr (j : Value) (key : Str) (dest : Option Str) : Option (Option Str) :=
  match get j key with
  | none => some dest
  | some (.str s) => some (some s)
  | some _ => none

/-- `json_read_bool` (lib/json_utils.c:21-45). -/
def readBool (j : Value) (key : Str) (dest : Bool) : Option Bool :=
  match get j key with
  | none => some dest
  | some (.bool b) => some b
  | some _ => none

/-- `json_check_type(root, json_type_object, ...)` (lib/json_utils.c:47-67). -/
def isObject : Value → Bool
  | .obj _ => true
  | _ => false

/-- The loop over an array of items: the first failure fails. -/
def readAll {α : Type} (f : Value → Option α) : List Value → Option (List α)
  | [] => some []
  | j :: l => (f j).bind fun a => (readAll f l).map fun as => a :: as

/-- Reading an optional array member: a missing member reads as no items. -/
def readArray {α : Type} (j : Value) (key : Str) (f : Value → Option α) : Option (List α) :=
  match get j key with
  | none => some []
  | some (.arr l) => readAll f l
  | some _ => none

end Satyr.Json
