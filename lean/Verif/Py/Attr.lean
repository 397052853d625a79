import Verif.Base
import Verif.CStr.Model
/-!
# Model of the attributes of Python objects

The Python objects of satyr have a pointer to a C structure; most attributes are members of this structure, which are read and
written by the functions in python/py_common.c at an offset. The structure is modelled as bytes, with the layout of the x86-64
ABI; the texts that its members point to are in a separate memory.
-/
namespace Satyr.Py
open Satyr.CStr

/-- Values in Python, as far as the functions distinguish them. `badStr` is a text with surrogates, which has no UTF-8 form;
`other` is any object that is neither a number nor a text, with the result of its test for truth (none: an exception). -/
inductive Value
  | none
  | bool (b : Bool)
  | int (z : Int)
  | str (s : Str)
  | badStr
  | other (truth : Option Bool)
  deriving DecidableEq, Repr

/-- Types of members. -/
inductive CType
  | ptr | u64 | u32 | u16 | bool | enum
  deriving DecidableEq, Repr

def CType.size : CType → Nat
  | .ptr | .u64 => 8
  | .u32 | .enum => 4
  | .u16 => 2
  | .bool => 1

/-- The pairs of functions in python/py_common.c. -/
inductive Access
  | string | uint16 | uint32 | uint64 | bool
  deriving DecidableEq, Repr

/-- The classes. -/
inductive Class
  | coreFrame | coreStacktrace | gdbFrame | gdbSharedlib | gdbThread | javaFrame | javaThread | jsFrame | jsStacktrace |
      koopsFrame | koopsStacktrace | operatingSystem | pythonFrame | pythonStacktrace | report | rpmPackage | rubyFrame |
      rubyStacktrace
  deriving DecidableEq, Repr

/-- The C structure of the class, member by member: `struct sr_core_frame` (include/core/frame.h:43-82), `struct
sr_core_stacktrace` (include/core/stacktrace.h:43-63), `struct sr_gdb_frame` (include/gdb/frame.h:47-104), `struct
sr_gdb_sharedlib` (include/gdb/sharedlib.h:45-52), `struct sr_gdb_thread` (include/gdb/thread.h:46-68), `struct sr_java_frame`
(include/java/frame.h:41-92), `struct sr_java_thread` (include/java/thread.h:47-66), `struct sr_js_frame`
(include/js/frame.h:41-54), `struct sr_js_stacktrace` (include/js/stacktrace.h:41-50), `struct sr_koops_frame`
(include/koops/frame.h:43-105), `struct sr_koops_stacktrace` (include/koops/stacktrace.h:41-95), `struct sr_operating_system`
(include/operating_system.h:36-46), `struct sr_python_frame` (include/python/frame.h:41-58), `struct sr_python_stacktrace`
(include/python/stacktrace.h:40-48), `struct sr_report` (include/report.h:46-68), `struct sr_rpm_package` (include/rpm.h:66-77),
`struct sr_ruby_frame` (include/ruby/frame.h:41-58), `struct sr_ruby_stacktrace` (include/ruby/stacktrace.h:40-47). -/
def members : Class → List (Str × CType)
  | .coreFrame => [(c!"type", .enum), (c!"address", .u64), (c!"build_id", .ptr), (c!"build_id_offset", .u64),
      (c!"function_name", .ptr), (c!"file_name", .ptr), (c!"fingerprint", .ptr), (c!"fingerprint_hashed", .bool), (c!"next",
      .ptr)]
  | .coreStacktrace => [(c!"type", .enum), (c!"signal", .u16), (c!"executable", .ptr), (c!"crash_thread", .ptr), (c!"threads",
      .ptr), (c!"only_crash_thread", .bool)]
  | .gdbFrame => [(c!"type", .enum), (c!"function_name", .ptr), (c!"function_type", .ptr), (c!"number", .u32), (c!"source_file",
      .ptr), (c!"source_line", .u32), (c!"signal_handler_called", .bool), (c!"address", .u64), (c!"library_name", .ptr),
      (c!"next", .ptr)]
  | .gdbSharedlib => [(c!"from", .u64), (c!"to", .u64), (c!"symbols", .enum), (c!"soname", .ptr), (c!"next", .ptr)]
  | .gdbThread => [(c!"type", .enum), (c!"number", .u32), (c!"frames", .ptr), (c!"next", .ptr), (c!"tid", .u32)]
  | .javaFrame => [(c!"type", .enum), (c!"name", .ptr), (c!"file_name", .ptr), (c!"file_line", .u32), (c!"class_path", .ptr),
      (c!"is_native", .bool), (c!"is_exception", .bool), (c!"message", .ptr), (c!"next", .ptr)]
  | .javaThread => [(c!"type", .enum), (c!"name", .ptr), (c!"frames", .ptr), (c!"next", .ptr)]
  | .jsFrame => [(c!"type", .enum), (c!"file_name", .ptr), (c!"file_line", .u32), (c!"line_column", .u32), (c!"function_name",
      .ptr), (c!"next", .ptr)]
  | .jsStacktrace => [(c!"type", .enum), (c!"exception_name", .ptr), (c!"frames", .ptr), (c!"platform", .u32)]
  | .koopsFrame => [(c!"type", .enum), (c!"address", .u64), (c!"reliable", .bool), (c!"function_name", .ptr),
      (c!"function_offset", .u64), (c!"function_length", .u64), (c!"module_name", .ptr), (c!"from_address", .u64),
      (c!"from_function_name", .ptr), (c!"from_function_offset", .u64), (c!"from_function_length", .u64), (c!"from_module_name",
      .ptr), (c!"special_stack", .ptr), (c!"next", .ptr)]
  | .koopsStacktrace => [(c!"type", .enum), (c!"version", .ptr), (c!"taint_module_proprietary", .bool),
      (c!"taint_module_out_of_tree", .bool), (c!"taint_forced_module", .bool), (c!"taint_forced_removal", .bool),
      (c!"taint_smp_unsafe", .bool), (c!"taint_mce", .bool), (c!"taint_page_release", .bool), (c!"taint_userspace", .bool),
      (c!"taint_died_recently", .bool), (c!"taint_acpi_overridden", .bool), (c!"taint_warning", .bool),
      (c!"taint_staging_driver", .bool), (c!"taint_firmware_workaround", .bool), (c!"taint_unsigned_module", .bool),
      (c!"taint_soft_lockup", .bool), (c!"taint_live_patched", .bool), (c!"modules", .ptr), (c!"raw_oops", .ptr), (c!"frames",
      .ptr), (c!"reason", .ptr)]
  | .operatingSystem => [(c!"name", .ptr), (c!"version", .ptr), (c!"architecture", .ptr), (c!"cpe", .ptr), (c!"uptime", .u64),
      (c!"desktop", .ptr), (c!"variant", .ptr)]
  | .pythonFrame => [(c!"type", .enum), (c!"special_file", .bool), (c!"file_name", .ptr), (c!"file_line", .u32),
      (c!"special_function", .bool), (c!"function_name", .ptr), (c!"line_contents", .ptr), (c!"next", .ptr)]
  | .pythonStacktrace => [(c!"type", .enum), (c!"exception_name", .ptr), (c!"frames", .ptr)]
  | .report => [(c!"report_version", .u32), (c!"report_type", .enum), (c!"reporter_name", .ptr), (c!"reporter_version", .ptr),
      (c!"user_root", .bool), (c!"user_local", .bool), (c!"operating_system", .ptr), (c!"component_name", .ptr),
      (c!"rpm_packages", .ptr), (c!"stacktrace", .ptr), (c!"auth_entries", .ptr), (c!"serial", .u32)]
  | .rpmPackage => [(c!"name", .ptr), (c!"epoch", .u32), (c!"version", .ptr), (c!"release", .ptr), (c!"architecture", .ptr),
      (c!"install_time", .u64), (c!"role", .enum), (c!"consistency", .ptr), (c!"next", .ptr)]
  | .rubyFrame => [(c!"type", .enum), (c!"file_name", .ptr), (c!"file_line", .u32), (c!"special_function", .bool),
      (c!"function_name", .ptr), (c!"block_level", .u32), (c!"rescue_level", .u32), (c!"next", .ptr)]
  | .rubyStacktrace => [(c!"type", .enum), (c!"exception_name", .ptr), (c!"frames", .ptr)]

/-- The attributes of the class that are accessed through `py_common.c`: their names, how they are accessed, and the member:
python/py_core_frame.c:61-68, python/py_core_stacktrace.c:61-63, python/py_gdb_frame.c:114-121, python/py_gdb_sharedlib.c:26-28,
python/py_gdb_thread.c:55-55, python/py_java_frame.c:63-70, python/py_java_thread.c:55-55, python/py_js_frame.c:60-63,
python/py_js_stacktrace.c:61-61, python/py_koops_frame.c:71-82, python/py_koops_stacktrace.c:51-52,
python/py_operating_system.c:42-46, python/py_python_frame.c:62-67, python/py_python_stacktrace.c:46-46,
python/py_report.c:64-69, python/py_rpm_package.c:53-58, python/py_ruby_frame.c:62-67, python/py_ruby_stacktrace.c:41-41. -/
def attributes : Class → List (Str × Access × Str)
  | .coreFrame => [(c!"address", .uint64, c!"address"), (c!"build_id", .string, c!"build_id"), (c!"build_id_offset", .uint64,
      c!"build_id_offset"), (c!"function_name", .string, c!"function_name"), (c!"file_name", .string, c!"file_name"),
      (c!"fingerprint", .string, c!"fingerprint"), (c!"fingerprint_hashed", .bool, c!"fingerprint_hashed")]
  | .coreStacktrace => [(c!"signal", .uint16, c!"signal"), (c!"executable", .string, c!"executable"), (c!"only_crash_thread",
      .bool, c!"only_crash_thread")]
  | .gdbFrame => [(c!"function_name", .string, c!"function_name"), (c!"function_type", .string, c!"function_type"), (c!"number",
      .uint32, c!"number"), (c!"source_file", .string, c!"source_file"), (c!"source_line", .uint32, c!"source_line"),
      (c!"signal_handler_called", .bool, c!"signal_handler_called"), (c!"address", .uint64, c!"address"), (c!"library_name",
      .string, c!"library_name")]
  | .gdbSharedlib => [(c!"start_address", .uint64, c!"from"), (c!"end_address", .uint64, c!"to"), (c!"soname", .string,
      c!"soname")]
  | .gdbThread => [(c!"number", .uint32, c!"number")]
  | .javaFrame => [(c!"function_name", .string, c!"name"), (c!"name", .string, c!"name"), (c!"file_name", .string,
      c!"file_name"), (c!"file_line", .uint32, c!"file_line"), (c!"class_path", .string, c!"class_path"), (c!"is_native", .bool,
      c!"is_native"), (c!"is_exception", .bool, c!"is_exception"), (c!"message", .string, c!"message")]
  | .javaThread => [(c!"name", .string, c!"name")]
  | .jsFrame => [(c!"file_name", .string, c!"file_name"), (c!"file_line", .uint32, c!"file_line"), (c!"line_column", .uint32,
      c!"line_column"), (c!"function_name", .string, c!"function_name")]
  | .jsStacktrace => [(c!"exception_name", .string, c!"exception_name")]
  | .koopsFrame => [(c!"reliable", .bool, c!"reliable"), (c!"address", .uint64, c!"address"), (c!"function_name", .string,
      c!"function_name"), (c!"function_offset", .uint64, c!"function_offset"), (c!"function_length", .uint64,
      c!"function_length"), (c!"module_name", .string, c!"module_name"), (c!"from_address", .uint64, c!"from_address"),
      (c!"from_function_name", .string, c!"from_function_name"), (c!"from_function_offset", .uint64, c!"from_function_offset"),
      (c!"from_function_length", .uint64, c!"from_function_length"), (c!"from_module_name", .string, c!"from_module_name"),
      (c!"special_stack", .string, c!"special_stack")]
  | .koopsStacktrace => [(c!"version", .string, c!"version"), (c!"raw_oops", .string, c!"raw_oops")]
  | .operatingSystem => [(c!"name", .string, c!"name"), (c!"version", .string, c!"version"), (c!"architecture", .string,
      c!"architecture"), (c!"cpe", .string, c!"cpe"), (c!"uptime", .uint64, c!"uptime")]
  | .pythonFrame => [(c!"file_name", .string, c!"file_name"), (c!"special_file", .bool, c!"special_file"), (c!"file_line",
      .uint32, c!"file_line"), (c!"function_name", .string, c!"function_name"), (c!"special_function", .bool,
      c!"special_function"), (c!"line_contents", .string, c!"line_contents")]
  | .pythonStacktrace => [(c!"exception_name", .string, c!"exception_name")]
  | .report => [(c!"reporter_name", .string, c!"reporter_name"), (c!"reporter_version", .string, c!"reporter_version"),
      (c!"user_root", .bool, c!"user_root"), (c!"user_local", .bool, c!"user_local"), (c!"component_name", .string,
      c!"component_name"), (c!"serial", .uint32, c!"serial")]
  | .rpmPackage => [(c!"name", .string, c!"name"), (c!"epoch", .uint32, c!"epoch"), (c!"version", .string, c!"version"),
      (c!"release", .string, c!"release"), (c!"architecture", .string, c!"architecture"), (c!"install_time", .uint64,
      c!"install_time")]
  | .rubyFrame => [(c!"file_name", .string, c!"file_name"), (c!"file_line", .uint32, c!"file_line"), (c!"special_function",
      .bool, c!"special_function"), (c!"function_name", .string, c!"function_name"), (c!"block_level", .uint32,
      c!"block_level"), (c!"rescue_level", .uint32, c!"rescue_level")]
  | .rubyStacktrace => [(c!"exception_name", .string, c!"exception_name")]

/-- `offsetof`: members are placed one after the other, each at a multiple of its size. -/
def offsetFrom (name : Str) : Nat → List (Str × CType) → Nat
  | pos, [] => pos
  | pos, (n, t) :: l =>
    let start := (pos + t.size - 1) / t.size * t.size
    if n = name then start else offsetFrom name (start + t.size) l

/-- The place of a member in the structure. -/
def offset (c : Class) (member : Str) : Nat := offsetFrom member 0 (members c)

/-! ## Memory -/

/-- A text in memory: allocated, or a constant of the program. -/
inductive Block
  | heap (s : Str)
  | const (s : Str)
  deriving DecidableEq, Repr

def Block.text : Block → Str
  | .heap s | .const s => s

/-- The bytes of the structure, and the texts in memory. -/
structure Obj where
  bytes : Nat → Nat
  texts : Nat → Option Block

/-- `malloc`: any address that is not in use; none if there is no memory left. -/
structure Allocator where
  pick : (Nat → Option Block) → Option Nat
  free : ∀ m p, pick m = some p → m p = none ∧ p ≠ 0 ∧ p < 2 ^ 64

/-- Reading a number of `w` bytes. -/
def readN (m : Nat → Nat) : Nat → Nat → Nat
  | _, 0 => 0
  | off, w + 1 => m off % 256 + 256 * readN m (off + 1) w

/-- Writing a number of `w` bytes. -/
def writeN (m : Nat → Nat) (off w v : Nat) : Nat → Nat :=
  fun x => if off ≤ x ∧ x < off + w then v / 256 ^ (x - off) % 256 else m x

def setText (m : Nat → Option Block) (p : Nat) (b : Option Block) : Nat → Option Block := fun x => if x = p then b else m x

/-- `g_free` of a text: undefined for constants and for what is not allocated. -/
def freeText (m : Nat → Option Block) (p : Nat) : Out (Nat → Option Block) :=
  if p = 0 then .ok m
  else
    match m p with
    | some (.heap _) => .ok (setText m p none)
    | _ => .ub

/-- `g_strdup`, up to the first NUL. -/
def dupText (A : Allocator) (m : Nat → Option Block) (s : Str) : Out (Nat × (Nat → Option Block)) :=
  match A.pick m with
  | none => .abort
  | some p => .ok (p, setText m p (some (.heap (s.takeWhile (· != '\x00')))))

/-! ## Getters -/

/-- `sr_py_getter_string`, `sr_py_getter_uint16`, `sr_py_getter_uint32`, `sr_py_getter_bool`, `sr_py_getter_uint64`
(python/py_common.c:30-40, 64-70, 98-104, 132-139, 158-171). Texts are taken as valid UTF-8. -/
def getAt (acc : Access) (off : Nat) (o : Obj) : Out Value :=
  match acc with
  | .string =>
    let p := readN o.bytes off 8
    if p = 0 then .ok .none
    else
      match o.texts p with
      | some b => .ok (.str b.text)
      | none => .ub
  | .uint16 => .ok (.int (readN o.bytes off 2))
  | .uint32 => .ok (.int (readN o.bytes off 4))
  | .bool => .ok (.bool (readN o.bytes off 1 != 0))
  | .uint64 =>
    let n := readN o.bytes off 8
    if n = 2 ^ 64 - 1 then .ok .none else .ok (.int n)

/-! ## Setters -/

/-- What the interpreter sees: success, an exception, or an exception together with the return value for success. -/
inductive Result
  | ok | exception | okWithException
  deriving DecidableEq, Repr

/-- A whole number, as the C API of Python sees it: `bool` is a kind of `int`. -/
def Value.asInt : Value → Option Int
  | .int z => some z
  | .bool b => some (if b then 1 else 0)
  | _ => Option.none

/-- `PyLong_AsLong`: an exception if it is no number or no `long`. -/
def asLong (v : Value) : Option Int :=
  match v.asInt with
  | some z => if -2 ^ 63 ≤ z ∧ z < 2 ^ 63 then some z else none
  | none => none

/-- `PyObject_IsTrue`; none is an exception. -/
def isTrue : Value → Option Bool
  | .none => some false
  | .bool b => some b
  | .int z => some (z != 0)
  | .str s => some (s != [])
  | .badStr => some true
  | .other t => t

/-- `sr_py_setter_string`, `sr_py_setter_uint16`, `sr_py_setter_uint32`, `sr_py_setter_bool`, `sr_py_setter_uint64`
(python/py_common.c:42-62, 72-96, 106-130, 141-156, 173-199). `rhs` is none if the attribute is deleted. -/
def setAt (A : Allocator) (acc : Access) (off : Nat) (rhs : Option Value) (o : Obj) : Out (Result × Obj) :=
  match rhs with
  | none => .ok (.exception, o)
  | some v =>
    match acc with
    | .string =>
      match v with
      | .str s =>
        (freeText o.texts (readN o.bytes off 8)).bind fun m =>
        (dupText A m s).bind fun (p, m) => .ok (.ok, { bytes := writeN o.bytes off 8 p, texts := m })
      | _ => .ok (.exception, o)
    | .uint16 =>
      match asLong v with
      | some z =>
        if z < 0 ∨ z > 65535 then .ok (.exception, o)
        else .ok (.ok, { o with bytes := writeN o.bytes off 2 z.toNat })
      | none => .ok (.exception, o)
    | .uint32 =>
      match asLong v with
      | some z =>
        if z < 0 then .ok (.exception, o)
        else .ok (.ok, { o with bytes := writeN o.bytes off 4 (z % 2 ^ 32).toNat })
      | none => .ok (.exception, o)
    | .bool =>
      match isTrue v with
      | some b => .ok (.ok, { o with bytes := writeN o.bytes off 1 (if b then 1 else 0) })
      | none => .ok (.okWithException, { o with bytes := writeN o.bytes off 1 1 })
    | .uint64 =>
      match v with
      | .none => .ok (.ok, { o with bytes := writeN o.bytes off 8 (2 ^ 64 - 1) })
      | v =>
        match v.asInt with
        | some z => .ok (.ok, { o with bytes := writeN o.bytes off 8 (z % 2 ^ 64).toNat })
        | none => .ok (.exception, o)

/-- An attribute: its name, how it is accessed, and the member. -/
abbrev Attr := Str × Access × Str

/-- Reading an attribute. -/
def get (c : Class) (a : Attr) (o : Obj) : Out Value := getAt a.2.1 (offset c a.2.2) o

/-- Assigning to an attribute. -/
def set (A : Allocator) (c : Class) (a : Attr) (rhs : Option Value) (o : Obj) : Out (Result × Obj) :=
  setAt A a.2.1 (offset c a.2.2) rhs o

end Satyr.Py
