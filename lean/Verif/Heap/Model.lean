import Verif.Base
import Verif.CStr.Model
/-!
# Model of memory: copying and freeing of structures

Memory is a partial function from addresses to blocks; a block is a text or a structure. The functions `sr_*_dup` and `sr_*_free`
of the different structures all have the same form; they differ in the members they copy and free. These are written down in
tables, one row per C function; the functions themselves are modelled once.
-/
namespace Satyr.Heap
open Satyr.CStr

/-- An address; 0 is NULL. -/
abbrev Ptr := Nat

/-- The structures. `module` stands for an element of `char **modules` of a kernel oops: the array with its texts, which is
copied by `g_strdupv` and freed by `g_strfreev`, is represented as a list. -/
inductive Kind
  | coreFrame | coreThread | coreTrace
  | gdbFrame | gdbThread | gdbTrace | gdbLib
  | koopsFrame | koopsTrace | module
  | javaFrame | javaThread | javaTrace
  | jsFrame | jsTrace | pythonFrame | pythonTrace | rubyFrame | rubyTrace
  | consistency | package | system | entry | report | unstrip
  deriving DecidableEq, Repr

/-- Members that are texts. -/
inductive Text
  | buildId | functionName | fileName | fingerprint | executable
  | functionType | sourceFile | libraryName | soname
  | moduleName | fromFunctionName | fromModuleName | specialStack | version | rawOops | reason | value
  | name | classPath | message | exceptionName | lineContents
  | path | release | architecture | cpe | desktop | variant | key | componentName | reporterName | reporterVersion | modName
  deriving DecidableEq, Repr

/-- Members that are structures: lists, or (`crash`, `operatingSystem`, `stacktrace`) single structures. -/
inductive Slot
  | frames | threads | libs | crash | modules | consistency | operatingSystem | packages | stacktrace | entries
  deriving DecidableEq, Repr

/-- Is the member a list? -/
def Slot.isList : Slot → Bool
  | .crash | .operatingSystem | .stacktrace => false
  | _ => true

/-- The kinds of structures that the stack trace of a report may have. -/
def traces : List Kind := [.coreTrace, .gdbTrace, .koopsTrace, .javaTrace, .jsTrace, .pythonTrace, .rubyTrace]

/-- The members of type `char *` of the structures in include/. (Members of a report that point to a constant text are taken as
NULL.) -/
def texts : Kind → List Text
  | .coreFrame => [.buildId, .functionName, .fileName, .fingerprint]
  | .coreThread => []
  | .coreTrace => [.executable]
  | .gdbFrame => [.functionName, .functionType, .sourceFile, .libraryName]
  | .gdbThread => []
  | .gdbTrace => []
  | .gdbLib => [.soname]
  | .koopsFrame => [.functionName, .moduleName, .fromFunctionName, .fromModuleName, .specialStack]
  | .koopsTrace => [.version, .rawOops, .reason]
  | .module => [.value]
  | .javaFrame => [.name, .fileName, .classPath, .message]
  | .javaThread => [.name]
  | .javaTrace => []
  | .jsFrame => [.fileName, .functionName]
  | .jsTrace => [.exceptionName]
  | .pythonFrame => [.fileName, .functionName, .lineContents]
  | .pythonTrace => [.exceptionName]
  | .rubyFrame => [.fileName, .functionName]
  | .rubyTrace => [.exceptionName]
  | .consistency => [.path]
  | .package => [.name, .version, .release, .architecture]
  | .system => [.name, .version, .architecture, .cpe, .desktop, .variant]
  | .entry => [.key, .value]
  | .report => [.componentName, .reporterName, .reporterVersion]
  | .unstrip => [.buildId, .fileName, .modName]

/-- The members that are structures or lists of structures, with the kinds they may have. The crash thread of a core stack trace
is not among them: it points to one of the threads. -/
def slots : Kind → List (Slot × List Kind)
  | .coreThread => [(.frames, [.coreFrame])]
  | .coreTrace => [(.threads, [.coreThread])]
  | .gdbThread => [(.frames, [.gdbFrame])]
  | .gdbTrace => [(.threads, [.gdbThread]), (.libs, [.gdbLib]), (.crash, [.gdbFrame])]
  | .koopsTrace => [(.frames, [.koopsFrame]), (.modules, [.module])]
  | .javaThread => [(.frames, [.javaFrame])]
  | .javaTrace => [(.threads, [.javaThread])]
  | .jsTrace => [(.frames, [.jsFrame])]
  | .pythonTrace => [(.frames, [.pythonFrame])]
  | .rubyTrace => [(.frames, [.rubyFrame])]
  | .package => [(.consistency, [.consistency])]
  | .report => [(.operatingSystem, [.system]), (.packages, [.package]), (.stacktrace, traces), (.entries, [.entry])]
  | _ => []

/-! ## What is copied -/

/-- The texts that are copied: `sr_core_frame_dup` (lib/core_frame.c:94-120), `sr_core_thread_dup` (lib/core_thread.c:90-110),
`sr_core_stacktrace_dup` (lib/core_stacktrace.c:109-121), `sr_gdb_frame_dup` (lib/gdb_frame.c:103-132), `sr_gdb_thread_dup`
(lib/gdb_thread.c:99-118), `sr_gdb_stacktrace_dup` (lib/gdb_stacktrace.c:122-136), `sr_gdb_sharedlib_dup`
(lib/gdb_sharedlib.c:55-72), `sr_koops_frame_dup` (lib/koops_frame.c:91-123), `sr_koops_stacktrace_dup`
(lib/koops_stacktrace.c:142-163), `sr_java_frame_dup` (lib/java_frame.c:125-154), `sr_java_thread_dup`
(lib/java_thread.c:95-117), `sr_java_stacktrace_dup` (lib/java_stacktrace.c:97-107), `sr_js_frame_dup` (lib/js_frame.c:93-116),
`sr_js_stacktrace_dup` (lib/js_stacktrace.c:115-131), `sr_python_frame_dup` (lib/python_frame.c:88-114),
`sr_python_stacktrace_dup` (lib/python_stacktrace.c:114-127), `sr_ruby_frame_dup` (lib/ruby_frame.c:88-111),
`sr_ruby_stacktrace_dup` (lib/ruby_stacktrace.c:113-126). The other structures have no such function. -/
def copiedTexts : Kind → List Text
  | .coreFrame => [.buildId, .functionName, .fileName, .fingerprint]
  | .coreTrace => [.executable]
  | .gdbFrame => [.functionName, .functionType, .sourceFile, .libraryName]
  | .gdbLib => [.soname]
  | .koopsFrame => [.functionName, .moduleName, .fromFunctionName, .fromModuleName, .specialStack]
  | .koopsTrace => [.version, .rawOops, .reason]
  | .module => [.value]
  | .javaFrame => [.fileName, .name, .classPath, .message]
  | .javaThread => [.name]
  | .jsFrame => [.fileName, .functionName]
  | .jsTrace => [.exceptionName]
  | .pythonFrame => [.fileName, .functionName, .lineContents]
  | .pythonTrace => [.exceptionName]
  | .rubyFrame => [.fileName, .functionName]
  | .rubyTrace => [.exceptionName]
  | _ => []

/-- The structures that are copied (by the functions listed at `copiedTexts`). -/
def copiedSlots : Kind → List Slot
  | .coreThread => [.frames]
  | .coreTrace => [.threads]
  | .gdbThread => [.frames]
  | .gdbTrace => [.crash, .threads, .libs]
  | .koopsTrace => [.frames, .modules]
  | .javaThread => [.frames]
  | .javaTrace => [.threads]
  | .jsTrace => [.frames]
  | .pythonTrace => [.frames]
  | .rubyTrace => [.frames]
  | _ => []

/-- The structures that can be copied. -/
def copyable : Kind → Bool
  | .consistency | .package | .system | .entry | .report | .unstrip => false
  | _ => true

/-! ## What is freed -/

/-- The texts that are freed: `sr_core_frame_free` (lib/core_frame.c:81-92), `sr_core_thread_free` (lib/core_thread.c:74-88),
`sr_core_stacktrace_free` (lib/core_stacktrace.c:90-107), `sr_gdb_frame_free` (lib/gdb_frame.c:90-101), `sr_gdb_thread_free`
(lib/gdb_thread.c:83-97), `sr_gdb_stacktrace_free` (lib/gdb_stacktrace.c:96-120), `sr_gdb_sharedlib_free`
(lib/gdb_sharedlib.c:45-53), `sr_koops_frame_free` (lib/koops_frame.c:77-89), `sr_koops_stacktrace_free`
(lib/koops_stacktrace.c:121-140), `sr_java_frame_free`, `sr_java_frame_free_full` (lib/java_frame.c:92-114),
`sr_java_thread_free` (lib/java_thread.c:83-93), `sr_java_stacktrace_free` (lib/java_stacktrace.c:81-95), `sr_js_frame_free`
(lib/js_frame.c:82-91), `sr_js_stacktrace_free` (lib/js_stacktrace.c:98-113), `sr_python_frame_free`
(lib/python_frame.c:76-86), `sr_python_stacktrace_free` (lib/python_stacktrace.c:97-112), `sr_ruby_frame_free`
(lib/ruby_frame.c:77-86), `sr_ruby_stacktrace_free` (lib/ruby_stacktrace.c:96-111), `sr_rpm_consistency_free`
(lib/rpm.c:806-818), `sr_rpm_package_free` (lib/rpm.c:53-69), `sr_operating_system_free` (lib/operating_system.c:50-63),
`sr_report_free` (lib/report.c:74-95), `sr_unstrip_free` (lib/unstrip.c:116-128). -/
def freedTexts : Kind → List Text
  | .coreFrame => [.buildId, .functionName, .fileName, .fingerprint]
  | .coreThread => []
  | .coreTrace => [.executable]
  | .gdbFrame => [.functionName, .functionType, .sourceFile, .libraryName]
  | .gdbThread => []
  | .gdbTrace => []
  | .gdbLib => [.soname]
  | .koopsFrame => [.functionName, .moduleName, .fromFunctionName, .fromModuleName, .specialStack]
  | .koopsTrace => [.version, .rawOops, .reason]
  | .module => [.value]
  | .javaFrame => [.fileName, .name, .classPath, .message]
  | .javaThread => [.name]
  | .javaTrace => []
  | .jsFrame => [.fileName, .functionName]
  | .jsTrace => [.exceptionName]
  | .pythonFrame => [.fileName, .functionName, .lineContents]
  | .pythonTrace => [.exceptionName]
  | .rubyFrame => [.fileName, .functionName]
  | .rubyTrace => [.exceptionName]
  | .consistency => [.path]
  | .package => [.name, .version, .release, .architecture]
  | .system => [.name, .version, .architecture, .cpe, .desktop, .variant]
  | .entry => [.value, .key]
  | .report => [.componentName]
  | .unstrip => [.buildId, .fileName, .modName]

/-- The structures that are freed (by the functions listed at `freedTexts`). -/
def freedSlots : Kind → List Slot
  | .coreThread => [.frames]
  | .coreTrace => [.threads]
  | .gdbThread => [.frames]
  | .gdbTrace => [.threads, .libs, .crash]
  | .koopsTrace => [.frames, .modules]
  | .javaThread => [.frames]
  | .javaTrace => [.threads]
  | .jsTrace => [.frames]
  | .pythonTrace => [.frames]
  | .rubyTrace => [.frames]
  | .package => [.consistency]
  | .report => [.operatingSystem, .packages, .stacktrace, .entries]
  | _ => []

/-! ## Memory -/

/-- A structure: its kind, the members that are not pointers, the texts in the order of `texts`, the structures in the order of
`slots` (the members that do not exist are NULL), the crash thread of a core stack trace, and the next structure of the list. -/
structure Record where
  kind : Kind
  data : List Int := []
  texts : List Ptr := []
  a : Ptr := 0
  b : Ptr := 0
  c : Ptr := 0
  e : Ptr := 0
  crashThread : Ptr := 0
  next : Ptr := 0
  deriving DecidableEq, Repr

inductive Cell
  | text (s : Str)
  | record (r : Record)
  deriving DecidableEq, Repr

abbrev Mem := Ptr → Option Cell

/-- Changing memory at one address. -/
def Mem.set (m : Mem) (p : Ptr) (c : Option Cell) : Mem := fun x => if x = p then c else m x

/-- `malloc`: any address that is not in use, depending on memory in any way; none if there is no memory left. -/
structure Allocator where
  pick : Mem → Option Ptr
  free : ∀ m p, pick m = some p → m p = none ∧ p ≠ 0

/-- `g_malloc` with the first assignment of contents; it aborts the program if there is no memory. -/
def alloc (A : Allocator) (c : Cell) (m : Mem) : Out (Ptr × Mem) :=
  match A.pick m with
  | none => .abort
  | some p => .ok (p, m.set p (some c))

/-- Reading a structure: undefined if there is none at the address. -/
def readRecord (m : Mem) (p : Ptr) : Out Record :=
  match m p with
  | some (.record r) => .ok r
  | _ => .ub

/-- Writing a structure. -/
def writeRecord (m : Mem) (p : Ptr) (r : Record) : Out Mem :=
  match m p with
  | some (.record _) => .ok (m.set p (some (.record r)))
  | _ => .ub

/-- `g_free`: freeing NULL does nothing; freeing what is not allocated is undefined. -/
def freeBlock (m : Mem) (p : Ptr) : Out Mem :=
  if p = 0 then .ok m
  else
    match m p with
    | some _ => .ok (m.set p none)
    | none => .ub

/-- `if (p) p = g_strdup(p)`. -/
def copyText (A : Allocator) (p : Ptr) (m : Mem) : Out (Ptr × Mem) :=
  if p = 0 then .ok (0, m)
  else
    match m p with
    | some (.text s) => alloc A (.text s) m
    | _ => .ub

/-- Copying the texts among `which`; other pointers are kept as `memcpy` left them. -/
def copyTexts (A : Allocator) (which : List Text) : List Text → List Ptr → Mem → Out (List Ptr × Mem)
  | t :: ts, p :: ps, m =>
    (if t ∈ which then copyText A p m else .ok (p, m)).bind fun (q, m) =>
      (copyTexts A which ts ps m).bind fun (qs, m) => .ok (q :: qs, m)
  | _, ps, m => .ok (ps, m)

/-- Copying the structure number `i`, if it is not NULL; `copy` is the function that copies structures. -/
def copySlot (copy : Ptr → Bool → Mem → Out (Ptr × Mem)) (k : Kind) (i : Nat) (p : Ptr) (m : Mem) : Out (Ptr × Mem) :=
  match (slots k)[i]? with
  | none => .ok (p, m)
  | some (s, _) => if s ∈ copiedSlots k ∧ p ≠ 0 then copy p s.isList m else .ok (p, m)

/-- `sr_*_dup(p, siblings)` (see `copiedTexts`); for stack traces, which are not in a list, `siblings` is false. The members of
the copy are written one after the other in the program; here all are written at the end, which makes no difference, since
nothing reads the copy meanwhile. `n` bounds the recursion; a deeper recursion, as in a list that is a cycle, counts as
undefined. -/
def copy (A : Allocator) : Nat → Ptr → Bool → Mem → Out (Ptr × Mem)
  | 0, _, _, _ => .ub
  | n + 1, p, siblings, m =>
    (readRecord m p).bind fun r =>
    (alloc A (.record r) m).bind fun (q, m) =>
    (if siblings ∧ r.next ≠ 0 then copy A n r.next true m else .ok (0, m)).bind fun (next, m) =>
    (copyTexts A (copiedTexts r.kind) (texts r.kind) r.texts m).bind fun (ts, m) =>
    (copySlot (copy A n) r.kind 0 r.a m).bind fun (a, m) =>
    (copySlot (copy A n) r.kind 1 r.b m).bind fun (b, m) =>
    (copySlot (copy A n) r.kind 2 r.c m).bind fun (c, m) =>
    (copySlot (copy A n) r.kind 3 r.e m).bind fun (e, m) =>
    (writeRecord m q { r with texts := ts, a := a, b := b, c := c, e := e, next := next }).bind fun m =>
    .ok (q, m)

/-- Freeing the texts among `which`. -/
def freeTexts (which : List Text) : List Text → List Ptr → Mem → Out Mem
  | t :: ts, p :: ps, m =>
    (if t ∈ which then freeBlock m p else .ok m).bind fun m => freeTexts which ts ps m
  | _, _, m => .ok m

/-- Freeing the structure number `i`. -/
def freeSlot (free : Ptr → Bool → Mem → Out Mem) (k : Kind) (i : Nat) (p : Ptr) (m : Mem) : Out Mem :=
  match (slots k)[i]? with
  | none => .ok m
  | some (s, _) => if s ∈ freedSlots k then free p s.isList m else .ok m

/-- `sr_*_free(p)` (see `freedTexts`); with `siblings`, the list from `p` on is freed, as it is done for the lists that are
members. The order in which a structure and the rest of its list are freed differs between the functions; here the rest comes
last. -/
def free : Nat → Ptr → Bool → Mem → Out Mem
  | 0, _, _, _ => .ub
  | n + 1, p, siblings, m =>
    if p = 0 then .ok m
    else
      (readRecord m p).bind fun r =>
      (freeTexts (freedTexts r.kind) (texts r.kind) r.texts m).bind fun m =>
      (freeSlot (free n) r.kind 0 r.a m).bind fun m =>
      (freeSlot (free n) r.kind 1 r.b m).bind fun m =>
      (freeSlot (free n) r.kind 2 r.c m).bind fun m =>
      (freeSlot (free n) r.kind 3 r.e m).bind fun m =>
      (freeBlock m p).bind fun m =>
      if siblings then free n r.next true m else .ok m

/-! ## Lists -/

/-- The loop of `sr_*_append` (lib/core_frame.c:227-240, lib/core_thread.c:136-149, lib/gdb_frame.c:250-263,
lib/gdb_thread.c:148-161, lib/gdb_sharedlib.c:74-87, lib/koops_frame.c:215-228, lib/java_frame.c:197-210,
lib/java_thread.c:140-153, lib/js_frame.c:171-184, lib/python_frame.c:189-202, lib/ruby_frame.c:176-189, lib/rpm.c:145-158,
lib/rpm.c:902-915): writes the pointer to `item` into the last structure. -/
def appendLoop : Nat → Ptr → Ptr → Mem → Out Mem
  | 0, _, _, _ => .ub
  | n + 1, dest, item, m =>
    (readRecord m dest).bind fun r =>
      if r.next ≠ 0 then appendLoop n r.next item m else writeRecord m dest { r with next := item }

/-- `sr_*_append`. -/
def append (n : Nat) (dest item : Ptr) (m : Mem) : Out (Ptr × Mem) :=
  if dest = 0 then .ok (item, m) else (appendLoop n dest item m).bind fun m => .ok (dest, m)

/-- The loop of `sr_gdb_stacktrace_remove_threads_except_one` (lib/gdb_stacktrace.c:155-161). -/
def exceptLoop : Nat → Ptr → Ptr → Mem → Out Mem
  | 0, _, _, _ => .ub
  | n + 1, p, thread, m =>
    if p = 0 then .ok m
    else
      (readRecord m p).bind fun r =>
      (if p ≠ thread then free n p false m else .ok m).bind fun m => exceptLoop n r.next thread m

/-- `sr_gdb_stacktrace_remove_threads_except_one` (lib/gdb_stacktrace.c:151-165); `trace` is the stack trace. -/
def exceptOne (n : Nat) (trace thread : Ptr) (m : Mem) : Out Mem :=
  (readRecord m trace).bind fun t =>
  (exceptLoop n t.a thread m).bind fun m =>
  (readRecord m thread).bind fun r =>
  (writeRecord m thread { r with next := 0 }).bind fun m => writeRecord m trace { t with a := thread }

end Satyr.Heap
