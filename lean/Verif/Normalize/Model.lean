import Verif.Threads.Model
import Verif.CStr.Cmp
import Verif.Normalize.Table
/-!
# Model of thread normalization (lib/normalize.c)

The gperf-generated perfect hash `in_word_set` is modelled as exact lookup in its keyword table.
-/
namespace Satyr.Normalize
open Satyr.CStr Satyr.Threads

/-- `struct sr_gdb_frame` (include/gdb/frame.h:47-104) without type and next. -/
structure GdbFrame where
  functionName : Option Str := none
  functionType : Option Str := none
  number : Nat := 0
  sourceFile : Option Str := none
  sourceLine : Nat := 0
  signalHandlerCalled : Bool := false
  address : Nat := 0
  libraryName : Option Str := none
  deriving Repr, DecidableEq

/-- `struct sr_core_frame` (include/core/frame.h:43-82) without type and next. -/
structure CoreFrame where
  address : Nat := 0
  buildId : Option Str := none
  buildIdOffset : Nat := 0
  functionName : Option Str := none
  fileName : Option Str := none
  fingerprint : Option Str := none
  fingerprintHashed : Bool := false
  deriving Repr, DecidableEq

/-- The varargs loop shared by `call_match` (lib/normalize.c:48-60) and `sr_gdb_frame_calls_func`
(lib/gdb_frame.c:149-161): one of the expected file names occurs in the file name. -/
def fileMatch (file : Option Str) : List Str → Bool
  | [] => false
  | e :: es =>
    match file with
    | some f => if strstrHas f e then true else fileMatch file es
    | none => fileMatch file es

/-- `call_match` (lib/normalize.c:32-64); `sr_gdb_frame_calls_func` (lib/gdb_frame.c:134-165) is the same on the
function name and source file of the frame. -/
def callMatch (name file : Option Str) (expected : Str) (files : List Str) : Bool :=
  match name with
  | none => false
  | some n => if strcmp n expected ≠ 0 then false else fileMatch file files

/-- `is_removable_glibc_with_above` (lib/normalize.c:66-104). -/
def removableWithAboveTable : List (Str × List Str) :=
  [(c!"__assert_fail", [c!""]), (c!"__assert_fail_base", [c!""]), (c!"__chk_fail", [c!""]), (c!"__longjmp_chk", [c!""]),
   (c!"__malloc_assert", [c!""]), (c!"__strcat_chk", [c!""]), (c!"__strcpy_chk", [c!""]), (c!"__strncpy_chk", [c!""]),
   (c!"__vsnprintf_chk", [c!""]), (c!"___vsnprintf_chk", [c!""]), (c!"__snprintf_chk", [c!""]), (c!"___snprintf_chk", [c!""]),
   (c!"__vasprintf_chk", [c!""]), (c!"__vsprintf_chk", [c!""]), (c!"___sprintf_chk", [c!""]), (c!"__fwprintf_chk", [c!""]),
   (c!"__asprintf_chk", [c!""]), (c!"___printf_chk", [c!""]), (c!"___fprintf_chk", [c!""]), (c!"__vswprintf_chk", [c!""]),
   (c!"malloc_consolidate", [c!"malloc.c", c!"libc"]), (c!"malloc_printerr", [c!"malloc.c", c!"libc"]),
   (c!"_int_malloc", [c!"malloc.c", c!"libc"]), (c!"_int_free", [c!"malloc.c", c!"libc"]), (c!"_int_realloc", [c!"malloc.c", c!"libc"]),
   (c!"_int_memalign", [c!"malloc.c"]), (c!"__libc_free", [c!"malloc.c"]), (c!"__libc_malloc", [c!"malloc.c"]),
   (c!"__libc_memalign", [c!"malloc.c"]), (c!"__libc_realloc", [c!"malloc.c"]), (c!"__posix_memalign", [c!"malloc.c"]),
   (c!"__libc_calloc", [c!"malloc.c"]), (c!"__libc_fatal", [c!"libc"])]

/-- `is_removable_glibc_with_above` (lib/normalize.c:66-104): the chain of `||`. -/
def isRemovableWithAbove (name file : Option Str) : Bool :=
  removableWithAboveTable.any fun e => callMatch name file e.1 e.2

/-- The functions unified by `find_new_function_name_glibc` (lib/normalize.c:123-144), in order. -/
def archFunctions : List Str :=
  [c!"memchr", c!"memcmp", c!"memcpy", c!"memmove", c!"memset", c!"rawmemchr", c!"strcasecmp", c!"strcasecmp_l", c!"strcat", c!"strchr",
   c!"strchrnul", c!"strcmp", c!"strcpy", c!"strcspn", c!"strlen", c!"strncmp", c!"strncpy", c!"strpbrk", c!"strrchr", c!"strspn",
   c!"strstr", c!"strtok"]

/-- Suffixes of `NORMALIZE_ARCH_SPECIFIC` (lib/normalize.c:111-121) with the directory pattern of each. -/
def archSuffixes : List (Str × Str) :=
  [(c!"_sse2", c!"/sysdeps/"), (c!"_sse2_bsf", c!"/sysdeps/"), (c!"_ssse3", c!"/sysdeps/"), (c!"_ssse3_rep", c!"/sysdeps/"),
   (c!"_ssse3_back", c!"/sysdeps/"), (c!"_sse42", c!"/sysdeps/"), (c!"_ia32", c!"/sysdeps")]

/-- `find_new_function_name_glibc` (lib/normalize.c:106-146): the first matching `NORMALIZE_ARCH_SPECIFIC`. -/
def findNewName (name file : Option Str) : Option Str :=
  (archFunctions.find? fun f => archSuffixes.any fun s =>
    callMatch name file (c!"__" ++ f ++ s.1) [f, s.2, c!"libc.so"])

/-- `remove_func_prefix` (lib/normalize.c:148-166). -/
def removeFuncPrefix (name : Option Str) (pre : Str) (num : Nat) : Option Str :=
  match name with
  | none => none
  | some n =>
    if startsWith n pre = false then some n
    else some (n.drop (if num > n.length then n.length else num))

/-- The four `remove_func_prefix` calls (lib/normalize.c:222-228, 380-386). -/
def stripPrefixes (name : Option Str) : Option Str :=
  let name := removeFuncPrefix name c!"IA__gdk" 4
  let name := removeFuncPrefix name c!"IA__g_" 4
  let name := removeFuncPrefix name c!"IA__gtk" 4
  removeFuncPrefix name c!"__GI_" 5

/-- `sr_gdb_is_exit_frame` (lib/normalize.c:168-183). -/
def gdbExitTable : List (Str × List Str) :=
  [(c!"__run_exit_handlers", [c!"exit.c"]), (c!"raise", [c!"pt-raise.c", c!"libc.so", c!"libc-", c!"libpthread.so", c!"raise.c"]),
   (c!"__GI_raise", [c!"raise.c"]), (c!"exit", [c!"exit.c"]), (c!"abort", [c!"abort.c", c!"libc.so", c!"libc-"]),
   (c!"__GI_abort", [c!"abort.c"]), (c!"__chk_fail", [c!"chk_fail.c", c!"libc.so"]),
   (c!"__stack_chk_fail", [c!"stack_chk_fail.c", c!"libc.so"]), (c!"do_exit", [c!"exit.c"]), (c!"kill", [c!"syscall-template.S"])]

/-- `sr_gdb_is_exit_frame` (lib/normalize.c:168-183). -/
def gdbIsExit (f : GdbFrame) : Bool := gdbExitTable.any fun e => callMatch f.functionName f.sourceFile e.1 e.2

/-- `sr_core_frame_calls_func` (lib/core_frame.c:122-156): with no file names the file does not matter. -/
def coreCallsFunc (f : CoreFrame) (expected : Str) (files : List Str) : Bool :=
  match f.functionName with
  | none => false
  | some n => if strcmp n expected ≠ 0 then false else fileMatch f.fileName files || files.isEmpty

/-- `sr_core_thread_is_exit_frame` (lib/core_thread.c:151-165). -/
def coreExitTable : List (Str × List Str) :=
  [(c!"__run_exit_handlers", []), (c!"raise", [c!"libc.so", c!"libc-", c!"libpthread.so"]), (c!"__GI_raise", []), (c!"exit", []),
   (c!"abort", [c!"libc.so", c!"libc-"]), (c!"__GI_abort", []), (c!"__chk_fail", [c!"libc.so"]), (c!"__stack_chk_fail", [c!"libc.so"]),
   (c!"kill", [])]

/-- `sr_core_thread_is_exit_frame` (lib/core_thread.c:151-165). -/
def coreIsExit (f : CoreFrame) : Bool := coreExitTable.any fun e => coreCallsFunc f e.1 e.2

/-- Loop over the source files of `sr_gdb_frame_is_removable` (lib/normalize.c:203-213). -/
def anyFile (file : Str) : List Str → Bool
  | [] => false
  | e :: es => if strstrHas file e then true else anyFile file es

/-- `sr_gdb_frame_is_removable` (lib/normalize.c:185-216). -/
def isRemovable (name file : Option Str) : Bool :=
  match name, file with
  | some n, some f =>
    match removableTable.find? fun e => decide (e.1 = n) with
    | none => false
    | some e => anyFile f e.2
  | _, _ => false

/-- `sr_glibc_thread_find_exit_frame` (lib/normalize.c:633-647), `sr_core_thread_find_exit_frame`
(lib/core_thread.c:167-181): the last exit frame. -/
def findExit {F : Type} (isExit : F → Bool) : List (Node F) → Option (Node F) → Option (Node F)
  | [], result => result
  | n :: t, result => findExit isExit t (if isExit n.val then some n else result)

/-- First step of normalization (lib/normalize.c:235-243, 362-372). -/
def removeExit {F : Type} (isExit : F → Bool) (t : List (Node F)) : Out (List (Node F)) :=
  match findExit isExit t none with
  | none => .ok t
  | some e => do
    let r ← removeFramesAbove e.id t
    if r.1 = false then .abort else
    let s := removeFrame e.id r.2
    if s.1 = false then .abort else .ok s.2

/-- A loop over all frames that rewrites each frame in place. -/
def mapFrames {F : Type} (f : F → F) (t : List (Node F)) : List (Node F) := t.map fun n => { n with val := f n.val }

/-- The loop removing redundant frames (lib/normalize.c:274-296, 410-433). `rest` are the frames the loop has still
to visit (the next pointer is saved before anything is freed, and no removal touches the frames below), `t` the
current frame list of the thread. -/
def removeRedundant {F : Type} (removable withAbove : F → Bool) : List (Node F) → List (Node F) → Out (List (Node F))
  | [], t => .ok t
  | n :: rest, t =>
    if withAbove n.val then do
      let r ← removeFramesAbove n.id t
      if r.1 = false then .abort else
      removeRedundant removable withAbove rest (removeFrame n.id r.2).2
    else if removable n.val then removeRedundant removable withAbove rest (removeFrame n.id t).2
    else removeRedundant removable withAbove rest t

/-- Removal of a null first frame (lib/normalize.c:310-316, 456-462). -/
def removeFirstNull {F : Type} (isNull : F → Bool) (t : List (Node F)) : List (Node F) :=
  match t with
  | [] => []
  | n :: _ => if isNull n.val then (removeFrame n.id t).2 else t

/-- Removal of a null last frame (lib/normalize.c:328-337, 474-482). -/
def removeLastNull {F : Type} (isNull : F → Bool) (t : List (Node F)) : List (Node F) :=
  match t.getLast? with
  | none => t
  | some n => if isNull n.val then (removeFrame n.id t).2 else t

/-- Loop merging recursive calls (lib/normalize.c:340-356, 485-501), from `prev` on. -/
def mergeFrom {F : Type} (same : F → F → Bool) (prev : Node F) : List (Node F) → List (Node F)
  | [] => [prev]
  | curr :: t => if same prev.val curr.val then mergeFrom same prev t else prev :: mergeFrom same curr t

/-- Loop merging recursive calls (lib/normalize.c:340-356, 485-501). -/
def mergeRecursive {F : Type} (same : F → F → Bool) : List (Node F) → List (Node F)
  | [] => []
  | n :: t => mergeFrom same n t

/-- `sr_normalize_gdb_frame` (lib/normalize.c:218-230). -/
def normalizeGdbFrame (f : GdbFrame) : GdbFrame :=
  if f.sourceFile.isSome then { f with functionName := stripPrefixes f.functionName } else f

/-- The renaming loop body (lib/normalize.c:260-269). -/
def renameGdb (f : GdbFrame) : GdbFrame :=
  match findNewName f.functionName f.sourceFile with
  | some n => { f with functionName := some n }
  | none => f

/-- Address 0 and name `??` (lib/normalize.c:310-313). -/
def gdbIsNull (f : GdbFrame) : Bool :=
  f.address == 0 && match f.functionName with | none => false | some n => strcmp n c!"??" == 0

/-- Same known function (lib/normalize.c:344-346). -/
def gdbSame (p c : GdbFrame) : Bool :=
  strcmp0 p.functionName (some c!"??") != 0 && strcmp0 p.functionName c.functionName == 0

/-- `sr_normalize_gdb_thread` (lib/normalize.c:232-357). -/
def normalizeGdb (t : List (Node GdbFrame)) : Out (List (Node GdbFrame)) := do
  let t ← removeExit gdbIsExit t
  let t := mapFrames normalizeGdbFrame t
  let t := mapFrames renameGdb t
  let t ← removeRedundant (fun f => isRemovable f.functionName f.sourceFile)
    (fun f => isRemovableWithAbove f.functionName f.sourceFile || gdbIsExit f) t t
  let t := removeFirstNull gdbIsNull t
  let t := removeLastNull gdbIsNull t
  .ok (mergeRecursive gdbSame t)

/-- The prefix loop body for core frames (lib/normalize.c:378-389). -/
def stripCore (f : CoreFrame) : CoreFrame := { f with functionName := stripPrefixes f.functionName }

/-- The renaming loop body for core frames (lib/normalize.c:394-406). -/
def renameCore (f : CoreFrame) : CoreFrame :=
  match findNewName f.functionName f.fileName with
  | some n => { f with functionName := some n }
  | none => f

/-- The anonymization loop body (lib/normalize.c:437-442); NULL stays NULL (lib/utils.c:733). -/
def anonymizeCore (f : CoreFrame) : CoreFrame := { f with fileName := f.fileName.map anonymizePath }

/-- Address 0 and no name (lib/normalize.c:456-458). -/
def coreIsNull (f : CoreFrame) : Bool := f.address == 0 && f.functionName.isNone

/-- Same known function (lib/normalize.c:489-491). -/
def coreSame (p c : CoreFrame) : Bool := p.functionName.isSome && strcmp0 p.functionName c.functionName == 0

/-- `sr_normalize_core_thread` (lib/normalize.c:359-503). -/
def normalizeCore (t : List (Node CoreFrame)) : Out (List (Node CoreFrame)) := do
  let t ← removeExit coreIsExit t
  let t := mapFrames stripCore t
  let t := mapFrames renameCore t
  let t ← removeRedundant (fun f => isRemovable f.functionName f.fileName)
    (fun f => isRemovableWithAbove f.functionName f.fileName || coreIsExit f) t t
  let t := mapFrames anonymizeCore t
  let t := removeFirstNull coreIsNull t
  let t := removeLastNull coreIsNull t
  .ok (mergeRecursive coreSame t)

/-- `sr_gdb_normalize_optimize_thread` (lib/normalize.c:616-631). -/
def removeMain : List (Node GdbFrame) → List (Node GdbFrame) → List (Node GdbFrame)
  | [], t => t
  | n :: rest, t =>
    match n.val.functionName with
    | some f => if strcmp f c!"main" = 0 then removeMain rest (removeFrame n.id t).2 else removeMain rest t
    | none => removeMain rest t

end Satyr.Normalize
