import Verif.Json.Model
import Verif.Koops.Flags
/-!
# Model of the JSON form of kernel oopses (lib/koops_frame.c, lib/koops_stacktrace.c)
-/
namespace Satyr.Json.Koops
open Satyr.CStr Satyr.Frames Satyr.Koops

/-- The members written by `sr_koops_frame_to_json` from the name of the function on (lib/koops_frame.c:609-665). -/
def frameRest (f : KoopsFrame) : Str :=
  strMember c!",   \"function_name\": " f.functionName ++
  (numMember c!",   \"function_offset\": " f.functionOffset ++
  (numMember c!",   \"function_length\": " f.functionLength ++
  (strMember c!",   \"module_name\": " f.moduleName ++
  ((if f.fromAddress ≠ 0 then numMember c!",   \"from_address\": " f.fromAddress else []) ++
  (strMember c!",   \"from_function_name\": " f.fromFunctionName ++
  (numMember c!",   \"from_function_offset\": " f.fromFunctionOffset ++
  (numMember c!",   \"from_function_length\": " f.fromFunctionLength ++
  (strMember c!",   \"from_module_name\": " f.fromModuleName ++
  strMember c!",   \"special_stack\": " f.specialStack))))))))

/-- `sr_koops_frame_to_json` (lib/koops_frame.c:592-669). -/
def frameToJson (f : KoopsFrame) : Str :=
  (if f.address ≠ 0 then numMember c!"{   \"address\": " f.address else []) ++
  ((if f.address = 0 then c!"{" else c!",") ++
  (c!"   \"reliable\": " ++
  ((if f.reliable then c!"true" else c!"false") ++ ('\n' ::
  (frameRest f ++ c!"}")))))

/-- `sr_koops_frame_from_json` (lib/koops_frame.c:671-700). -/
def frameFromJson (j : Value) : Option KoopsFrame :=
  if isObject j = false then none else
  (readU64 j c!"address" 0).bind fun address =>
  (readBool j c!"reliable" false).bind fun reliable =>
  (readStr j c!"function_name" none).bind fun functionName =>
  (readU64 j c!"function_offset" 0).bind fun functionOffset =>
  (readU64 j c!"function_length" 0).bind fun functionLength =>
  (readStr j c!"module_name" none).bind fun moduleName =>
  (readU64 j c!"from_address" 0).bind fun fromAddress =>
  (readStr j c!"from_function_name" none).bind fun fromFunctionName =>
  (readU64 j c!"from_function_offset" 0).bind fun fromFunctionOffset =>
  (readU64 j c!"from_function_length" 0).bind fun fromFunctionLength =>
  (readStr j c!"from_module_name" none).bind fun fromModuleName =>
  (readStr j c!"special_stack" none).bind fun specialStack =>
  some { address, reliable, functionName, functionOffset, functionLength, moduleName, fromAddress, fromFunctionName,
         fromFunctionOffset, fromFunctionLength, fromModuleName, specialStack }

/-- The entries written by the loop of `taint_flags_to_json` (lib/koops_stacktrace.c:526-534). -/
def flagsBody (t : Taints) : Str :=
  flags.flatMap fun f => if f.get t = true then c!", \"" ++ (f.name ++ c!"\"\n") else []

/-- `taint_flags_to_json` (lib/koops_stacktrace.c:521-547). -/
def flagsText (t : Taints) : Str :=
  if flagsBody t = [] then c!"[]"
  else '[' :: ((flagsBody t).drop 1).dropLast ++ c!" ]"

/-- The loop that writes the modules (lib/koops_stacktrace.c:583-593). -/
def modulesLoop : List Str → Str
  | [] => []
  | [m] => escaped m
  | m :: m' :: l => escaped m ++ ('\n' :: (c!"      , " ++ modulesLoop (m' :: l)))

/-- The modules (lib/koops_stacktrace.c:577-596). -/
def modulesText : Option (List Str) → Str
  | none => []
  | some l => c!",   \"modules\":\n" ++ (c!"      [ " ++ (modulesLoop l ++ c!" ]\n"))

/-- The members written by `sr_koops_stacktrace_to_json` (lib/koops_stacktrace.c:554-622). -/
def traceBody (t : KoopsTrace) : Str :=
  strMember c!",   \"raw_oops\": " t.rawOops ++
  (strMember c!",   \"version\": " t.version ++
  (c!",   \"taint_flags\": " ++ (indentExceptFirst 19 (flagsText t.taint) ++ ('\n' ::
  (modulesText t.modules ++
  (if t.frames ≠ [] then c!",   \"frames\":\n" ++ arrayText (t.frames.map frameToJson) else []))))))

/-- `sr_koops_stacktrace_to_json` (lib/koops_stacktrace.c:549-630). -/
def toJson (t : KoopsTrace) : Str :=
  (if traceBody t ≠ [] then '{' :: (traceBody t).drop 1 else c!"{") ++ c!"}"

/-- The loop over the taint flags (lib/koops_stacktrace.c:660-682). -/
def readFlags (t : Taints) : List Value → Option Taints
  | [] => some t
  | .str s :: l => readFlags (setName s t) l
  | _ :: _ => none

/-- Reading the taint flags (lib/koops_stacktrace.c:650-683). -/
def flagsFromJson (j : Value) : Option Taints :=
  match get j c!"taint_flags" with
  | none => some {}
  | some (.arr l) => readFlags {} l
  | some _ => none

/-- The loop over the modules (lib/koops_stacktrace.c:700-722). `allocated` is the variable of that name, `bytes` the size of
the array in bytes; `g_realloc` is called with a number of elements for a number of bytes. Storing an element outside the
array is undefined behaviour. If an entry is not a string the array, whose remaining elements are not initialised, is passed to
`g_strfreev` (lib/koops_stacktrace.c:134), which is undefined behaviour too. -/
def readModules (allocated bytes i : Nat) : List Value → Out (List Str)
  | [] => if (i + 1) * 8 ≤ bytes then .ok [] else .ub
  | .str s :: l =>
    let grow := i + 1 = allocated
    let allocated' := if grow then allocated * 2 else allocated
    let bytes' := if grow then allocated * 2 else bytes
    if (i + 1) * 8 ≤ bytes' then do
      let r ← readModules allocated' bytes' (i + 1) l
      .ok (s :: r)
    else .ub
  | _ :: _ => .ub

/-- Reading the modules (lib/koops_stacktrace.c:685-723): `none` is a jump to `fail`. -/
def modulesFromJson (j : Value) : Out (Option (Option (List Str))) :=
  match get j c!"modules" with
  | none => .ok (some none)
  | some (.arr l) => do
    let r ← readModules 128 (128 * 8) 0 l
    .ok (some (some r))
  | some _ => .ok none

/-- The parts read before the modules (lib/koops_stacktrace.c:635-683). -/
def headFromJson (j : Value) : Option (Option Str × Option Str × Taints) :=
  if isObject j = false then none else
  (readStr j c!"version" none).bind fun version =>
  (readStr j c!"raw_oops" none).bind fun rawOops =>
  (flagsFromJson j).bind fun taint => some (version, rawOops, taint)

/-- `sr_koops_stacktrace_from_json` (lib/koops_stacktrace.c:632-757). -/
def fromJson (j : Value) : Out (Option KoopsTrace) :=
  match headFromJson j with
  | none => .ok none
  | some (version, rawOops, taint) =>
    match modulesFromJson j with
    | .ok (some modules) =>
      .ok ((readArray j c!"frames" frameFromJson).bind fun frames =>
        some { version, taint, modules, rawOops, frames, reason := none })
    | .ok none => .ok none
    | .abort => .abort
    | .ub => .ub

end Satyr.Json.Koops
