import Verif.Heap.Model
import Verif.Json.CoreModel
import Verif.Json.KoopsModel
import Verif.Json.ScriptModel
import Verif.Json.PackageModel
/-!
# Model of memory: reading structures from JSON

The functions `sr_*_from_json` all have the same form: they check that the value is an object, make a new structure, fill in its
members one after the other, and free the structure if one of them cannot be read. They differ in the members; these are
written down in a table, one row per C function.
-/
namespace Satyr.Heap
open Satyr.CStr
open Satyr.Json

/-- Memory, and the `char *` that the parameter `error_message` points to (`none` if that parameter is NULL). -/
structure State where
  mem : Mem
  err : Option Ptr

/-- The message of `json_check_type` (lib/json_utils.c:62-63). -/
def typeError (name type : Str) : Str := c!"Invalid type of `" ++ (name ++ (c!"`; `" ++ (type ++ c!"` expected")))

/-- `if (error_message) *error_message = g_strdup_printf(...)`, as in `json_check_type` (lib/json_utils.c:56-64): what was there
before is overwritten. -/
def setError (A : Allocator) (msg : Str) (s : State) : Out State :=
  match s.err with
  | none => .ok s
  | some _ => (alloc A (.text msg) s.mem).bind fun (q, m) => .ok ⟨m, some q⟩

/-! ## The members -/

/-- What the functions do for the members. -/
inductive Step
  /-- Numbers and truth values: they are read without allocating memory; an error is reported with a message. -/
  | data (f : Value → Except Str (List Int))
  /-- `JSON_READ_STRING`. -/
  | text (key : Str) (t : Text)
  /-- One of two members (and which one), as in lib/python_frame.c:414-440. -/
  | either (key special : Str) (t : Text)
  /-- An array of structures, appended to a list one after the other; with `marked`, the pointer to the crash thread is set too. -/
  | list (key : Str) (item : Kind) (marked : Bool)
  /-- The modules of a kernel oops. -/
  | modules
  /-- The platform of a JavaScript stack trace. -/
  | platform

/-- `JSON_READ_UINT64` (lib/json_utils.c:41). -/
def u64 (key : Str) (d : Nat) : Step := .data fun j =>
  match readU64 j key d with
  | none => .error (typeError key c!"int")
  | some n => .ok [(n : Int)]

/-- `JSON_READ_UINT32` (lib/json_utils.c:42). -/
def u32 (key : Str) (d : Nat) : Step := .data fun j =>
  match readU32 j key d with
  | none => .error (typeError key c!"int")
  | some n => .ok [(n : Int)]

/-- `JSON_READ_UINT16` (lib/json_utils.c:43). -/
def u16 (key : Str) (d : Nat) : Step := .data fun j =>
  match readU16 j key d with
  | none => .error (typeError key c!"int")
  | some n => .ok [(n : Int)]

/-- `JSON_READ_BOOL` (lib/json_utils.c:45). -/
def flag (key : Str) (d : Bool) : Step := .data fun j =>
  match readBool j key d with
  | none => .error (typeError key c!"boolean")
  | some b => .ok [if b then 1 else 0]

/-- The taint flags as numbers. -/
def taintData (t : Frames.Taints) : List Int :=
  [t.moduleProprietary, t.moduleOutOfTree, t.forcedModule, t.forcedRemoval, t.smpUnsafe, t.mce, t.pageRelease, t.userspace,
    t.diedRecently, t.acpiOverridden, t.warning, t.stagingDriver, t.firmwareWorkaround, t.unsignedModule, t.softLockup,
    t.livePatched].map fun b => if b then 1 else 0

/-- The taint flags (lib/koops_stacktrace.c:650-683). -/
def taintFlags : Step := .data fun j =>
  match Koops.flagsFromJson j with
  | some t => .ok (taintData t)
  | none =>
    match get j c!"taint_flags" with
    | some (.arr _) => .error (typeError c!"taint flag" c!"string")
    | _ => .error (typeError c!"taint_flags" c!"array")

/-- The role of a package (lib/rpm.c:592-612). -/
def role : Step := .data fun j =>
  match Rpm.readRole j with
  | some .unknown => .ok [0]
  | some .affected => .ok [1]
  | none =>
    match get j c!"package_role" with
    | some (.str s) => .error (c!"Invalid package role " ++ s)
    | _ => .error (typeError c!"package_role" c!"string")

/-- The members in the order in which they are read: `sr_core_frame_from_json` (lib/core_frame.c:242-267),
`sr_core_thread_from_json` (lib/core_thread.c:183-222), `sr_core_stacktrace_from_json` (lib/core_stacktrace.c:164-224),
`sr_koops_frame_from_json` (lib/koops_frame.c:671-700), `sr_koops_stacktrace_from_json` (lib/koops_stacktrace.c:632-757),
`sr_java_frame_from_json` (lib/java_frame.c:622-646), `sr_java_thread_from_json` (lib/java_thread.c:410-452),
`sr_java_stacktrace_from_json` (lib/java_stacktrace.c:195-233), `sr_js_frame_from_json` (lib/js_frame.c:373-420),
`sr_js_stacktrace_from_json` (lib/js_stacktrace.c:297-350), `sr_python_frame_from_json` (lib/python_frame.c:405-478),
`sr_python_stacktrace_from_json` (lib/python_stacktrace.c:280-323), `sr_ruby_frame_from_json` (lib/ruby_frame.c:398-459),
`sr_ruby_stacktrace_from_json` (lib/ruby_stacktrace.c:319-362), `single_rpm_package_from_json` (lib/rpm.c:573-619). -/
def steps : Kind → List Step
  | .coreFrame =>
    [u64 c!"address" Core.ulongMax, .text c!"build_id" .buildId, u64 c!"build_id_offset" Core.ulongMax,
      .text c!"function_name" .functionName, .text c!"file_name" .fileName, .text c!"fingerprint" .fingerprint,
      flag c!"fingerprint_hashed" true]
  | .coreThread => [.list c!"frames" .coreFrame false]
  | .coreTrace =>
    [u16 c!"signal" 0, .text c!"executable" .executable, flag c!"only_crash_thread" false, .list c!"stacktrace" .coreThread true]
  | .koopsFrame =>
    [u64 c!"address" 0, flag c!"reliable" false, .text c!"function_name" .functionName, u64 c!"function_offset" 0,
      u64 c!"function_length" 0, .text c!"module_name" .moduleName, u64 c!"from_address" 0,
      .text c!"from_function_name" .fromFunctionName, u64 c!"from_function_offset" 0, u64 c!"from_function_length" 0,
      .text c!"from_module_name" .fromModuleName, .text c!"special_stack" .specialStack]
  | .koopsTrace =>
    [.text c!"version" .version, .text c!"raw_oops" .rawOops, taintFlags, .modules, .list c!"frames" .koopsFrame false]
  | .javaFrame =>
    [.text c!"name" .name, .text c!"file_name" .fileName, u32 c!"file_line" 0, .text c!"class_path" .classPath,
      flag c!"is_native" false, flag c!"is_exception" false, .text c!"message" .message]
  | .javaThread => [.text c!"name" .name, .list c!"frames" .javaFrame false]
  | .javaTrace => [.list c!"threads" .javaThread false]
  | .jsFrame =>
    [.text c!"file_name" .fileName, .text c!"function_name" .functionName, u32 c!"file_line" 0, u32 c!"line_column" 0]
  | .jsTrace => [.text c!"exception_name" .exceptionName, .list c!"stacktrace" .jsFrame false, .platform]
  | .pythonFrame =>
    [.either c!"file_name" c!"special_file" .fileName, .either c!"function_name" c!"special_function" .functionName,
      .text c!"line_contents" .lineContents, u32 c!"file_line" 0]
  | .pythonTrace => [.text c!"exception_name" .exceptionName, .list c!"stacktrace" .pythonFrame false]
  | .rubyFrame =>
    [.text c!"file_name" .fileName, .either c!"function_name" c!"special_function" .functionName, u32 c!"file_line" 0,
      u32 c!"block_level" 0, u32 c!"rescue_level" 0]
  | .rubyTrace => [.text c!"exception_name" .exceptionName, .list c!"stacktrace" .rubyFrame false]
  | .package =>
    [.text c!"name" .name, .text c!"version" .version, .text c!"release" .release, .text c!"architecture" .architecture,
      u32 c!"epoch" 0, u64 c!"install_time" 0, role]
  | _ => []

/-- The name of the structure in the message (the calls of `json_check_type` at the beginning of the functions listed at
`steps`). -/
def title : Kind → Str
  | .coreThread | .javaThread => c!"thread"
  | .coreTrace | .koopsTrace | .javaTrace | .jsTrace | .pythonTrace | .rubyTrace => c!"stacktrace"
  | .package => c!"package"
  | _ => c!"frame"

/-! ## Reading -/

/-- `result->member = g_strdup(string)`. -/
def storeText (A : Allocator) (p : Ptr) (k : Kind) (t : Text) (str : Str) (s : State) : Out State :=
  (alloc A (.text str) s.mem).bind fun (q, m) =>
  (readRecord m p).bind fun r =>
  (writeRecord m p { r with texts := r.texts.set ((texts k).idxOf t) q }).bind fun m => .ok ⟨m, s.err⟩

/-- Assignments to members that are not pointers. -/
def storeData (p : Ptr) (l : List Int) (s : State) : Out State :=
  (readRecord s.mem p).bind fun r => (writeRecord s.mem p { r with data := r.data ++ l }).bind fun m => .ok ⟨m, s.err⟩

/-- `json_check_type` fails: the message, and the result `false`. -/
def refuse (A : Allocator) (msg : Str) (s : State) : Out (Bool × State) :=
  (setError A msg s).bind fun s => .ok (false, s)

/-- The member `crash_thread` of a thread (lib/core_stacktrace.c:203-213); `q` is the thread, `p` the stack trace. -/
def storeMark (A : Allocator) (n : Nat) (p q : Ptr) (marked : Bool) (x : Value) (s : State) : Out (Bool × State) :=
  if marked = false then .ok (true, s)
  else
    match get x c!"crash_thread" with
    | none => .ok (true, s)
    | some (.bool b) =>
      if b then
        (readRecord s.mem p).bind fun r =>
        (writeRecord s.mem p { r with crashThread := q }).bind fun m => .ok (true, ⟨m, s.err⟩)
      else .ok (true, s)
    | some _ =>
      (setError A (typeError c!"crash_thread" c!"boolean") s).bind fun s =>
      (free n q false s.mem).bind fun m => .ok (false, ⟨m, s.err⟩)

/-- `result->frames = sr_*_frame_append(result->frames, frame)`. -/
def storeItem (n : Nat) (p q : Ptr) (s : State) : Out State :=
  (readRecord s.mem p).bind fun r =>
  (append n r.a q s.mem).bind fun (a, m) =>
  (readRecord m p).bind fun r =>
  (writeRecord m p { r with a := a }).bind fun m => .ok ⟨m, s.err⟩

/-- The loop over an array of structures (for instance lib/core_thread.c:203-214). -/
def storeItems (A : Allocator) (item : Value → State → Out (Ptr × State)) (n : Nat) (p : Ptr) (marked : Bool) :
    List Value → State → Out (Bool × State)
  | [], s => .ok (true, s)
  | x :: l, s =>
    (item x s).bind fun (q, s) =>
    if q = 0 then .ok (false, s)
    else
      (storeMark A n p q marked x s).bind fun (ok, s) =>
      if ok then (storeItem n p q s).bind fun s => storeItems A item n p marked l s else .ok (false, s)

/-- The array of modules (lib/koops_stacktrace.c:696-722); the last structure stands for the NULL at its end, and for the array
itself. Here the texts are allocated from the last one to the first one. -/
def storeModules (A : Allocator) : List Str → Mem → Out (Ptr × Mem)
  | [], m => alloc A (.record { kind := .module, texts := [0] }) m
  | s :: l, m =>
    (storeModules A l m).bind fun (next, m) =>
    (alloc A (.text s) m).bind fun (q, m) => alloc A (.record { kind := .module, texts := [q], next := next }) m

/-- The engine or the runtime (lib/js_platform.c:199-214 and 216-231): the text, which remains to be freed, and the number unless
it is refused. -/
def readPart (A : Allocator) (j : Value) (key missing unknown : Str) (of : Str → Nat) (s : State) :
    Out (Ptr × Option Nat × State) :=
  match get j key with
  | none => (setError A missing s).bind fun s => .ok (0, none, s)
  | some (.str str) =>
    (alloc A (.text str) s.mem).bind fun (q, m) =>
    if strcmp str c!"<unknown>" = 0 then .ok (q, some 0, ⟨m, s.err⟩)
    else if of str = 0 then
      (setError A (unknown ++ (str ++ c!"'")) ⟨m, s.err⟩).bind fun s => .ok (q, none, s)
    else .ok (q, some (of str), ⟨m, s.err⟩)
  | some _ => (setError A (typeError key c!"string") s).bind fun s => .ok (0, none, s)

/-- `sr_js_platform_from_json` (lib/js_platform.c:191-240). -/
def readPlatform (A : Allocator) (j : Value) (s : State) : Out (Option Nat × State) :=
  (readPart A j c!"engine" c!"No 'engine' member" c!"Unknown JavaScript engine '" Js.engineOf s).bind fun (q, engine, s) =>
  match engine with
  | none => (freeBlock s.mem q).bind fun m => .ok (none, ⟨m, s.err⟩)
  | some engine =>
    (readPart A j c!"runtime" c!"No 'runtime' member" c!"Unknown JavaScript runtime '" Js.runtimeOf s).bind fun (q', runtime, s) =>
    (freeBlock s.mem q).bind fun m =>
    (freeBlock m q').bind fun m => .ok (runtime.map (Js.assemble engine), ⟨m, s.err⟩)

/-- One member. -/
def runStep (A : Allocator) (item : Kind → Value → State → Out (Ptr × State)) (n : Nat) (p : Ptr) (k : Kind) (j : Value) (s : State) :
    Step → Out (Bool × State)
  | .data f =>
    match f j with
    | .error msg => refuse A msg s
    | .ok l => (storeData p l s).bind fun s => .ok (true, s)
  | .text key t =>
    match get j key with
    | none => .ok (true, s)
    | some (.str str) => (storeText A p k t str s).bind fun s => .ok (true, s)
    | some _ => refuse A (typeError key c!"string") s
  | .either key special t =>
    match get j key with
    | some (.str str) => (storeData p [0] s).bind fun s => (storeText A p k t str s).bind fun s => .ok (true, s)
    | some _ => refuse A (typeError key c!"string") s
    | none =>
      match get j special with
      | some (.str str) => (storeData p [1] s).bind fun s => (storeText A p k t str s).bind fun s => .ok (true, s)
      | some _ => refuse A (typeError special c!"string") s
      | none => (storeData p [0] s).bind fun s => .ok (true, s)
  | .list key kind marked =>
    match get j key with
    | none => .ok (true, s)
    | some (.arr l) => storeItems A (item kind) n p marked l s
    | some _ => refuse A (typeError key c!"array") s
  | .modules =>
    (Koops.modulesFromJson j).bind fun o =>
    match o with
    | none => refuse A (typeError c!"modules" c!"array") s
    | some none => .ok (true, s)
    | some (some l) =>
      (storeModules A l s.mem).bind fun (q, m) =>
      (readRecord m p).bind fun r =>
      (writeRecord m p { r with b := q }).bind fun m => .ok (true, ⟨m, s.err⟩)
  | .platform =>
    match get j c!"platform" with
    | none => (storeData p [0] s).bind fun s => .ok (true, s)
    | some v =>
      (readPlatform A v s).bind fun (r, s) =>
      match s.err with
      | none => .ub
      | some e => if e ≠ 0 then .ok (false, s) else (storeData p [((r.getD 0 : Nat) : Int)] s).bind fun s => .ok (true, s)

/-- The members one after the other, up to the first one that cannot be read. -/
def runSteps (A : Allocator) (item : Kind → Value → State → Out (Ptr × State)) (n : Nat) (p : Ptr) (k : Kind) (j : Value) :
    List Step → State → Out (Bool × State)
  | [], s => .ok (true, s)
  | t :: l, s =>
    (runStep A item n p k j s t).bind fun (ok, s) => if ok then runSteps A item n p k j l s else .ok (false, s)

mutual
/-- The number of values in a value. -/
def weight : Value → Nat
  | .arr l => weights l + 1
  | .obj l => memberWeights l + 1
  | _ => 1
/-- The number of values in some values. -/
def weights : List Value → Nat
  | [] => 0
  | v :: l => weight v + weights l
/-- The number of values in some members. -/
def memberWeights : List (Str × Value) → Nat
  | [] => 0
  | (_, v) :: l => weight v + memberWeights l
end

/-- More than the number of structures that are made from a value; it bounds the recursion of the functions that free and append
lists. -/
def room (j : Value) : Nat := 8 * weight j + 8

/-- `sr_*_from_json` (see `steps`). The new structure has NULL in all members that are pointers (`sr_*_init`, called by
`sr_*_new`). The first argument bounds the nesting of structures, which is three. -/
def read (A : Allocator) : Nat → Kind → Value → State → Out (Ptr × State)
  | 0, _, _, _ => .ub
  | d + 1, k, j, s =>
    if isObject j = false then (setError A (typeError (title k) c!"object") s).bind fun s => .ok (0, s)
    else
      (alloc A (.record { kind := k, texts := List.replicate (texts k).length 0 }) s.mem).bind fun (p, m) =>
      (runSteps A (read A d) (room j) p k j (steps k) ⟨m, s.err⟩).bind fun (ok, s) =>
      if ok then .ok (p, s) else (free (room j) p (k == .package) s.mem).bind fun m => .ok (0, ⟨m, s.err⟩)

/-- The loop of `sr_rpm_package_from_json` (lib/rpm.c:640-651 and 657-658); `result` is the list so far. -/
def readPackages (A : Allocator) (n : Nat) : List Value → Ptr → State → Out (Option Ptr × State)
  | [], result, s => .ok (some result, s)
  | x :: l, result, s =>
    (read A 1 .package x s).bind fun (q, s) =>
    if q = 0 then (free n result true s.mem).bind fun m => .ok (none, ⟨m, s.err⟩)
    else (append n result q s.mem).bind fun (result, m) => readPackages A n l result ⟨m, s.err⟩

/-- `sr_rpm_package_from_json(.., json, true, ..)` (lib/rpm.c:621-661): the list, or none if the return value is negative. -/
def readPackageList (A : Allocator) (j : Value) (s : State) : Out (Option Ptr × State) :=
  match j with
  | .arr l => readPackages A (room j) l 0 s
  | _ => (setError A (typeError c!"package list" c!"array") s).bind fun s => .ok (none, s)

end Satyr.Heap
