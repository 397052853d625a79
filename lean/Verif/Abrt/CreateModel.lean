import Verif.Abrt.Model
import Verif.Unwind.Model
import Verif.Gdb.TraceModel
/-!
# Model of creating the core stack trace of a problem directory (lib/abrt.c)
-/
namespace Satyr.Abrt
open Satyr.CStr Satyr.Frames

/-- What the system does when a file is written: whether it can be opened, how many characters are written at once, and whether it
can be closed. -/
structure Disk where
  opens : Bool := true
  written : Nat
  closes : Bool := true
  deriving DecidableEq, Repr

/-- `sr_string_to_file` (lib/utils.c:206-249): the result, whether `*error_message` has been assigned, and the directory
afterwards. -/
def stringToFile (disk : Disk) (d : Dir) (name text : Str) (m : Bool) : Bool × Bool × Dir :=
  if disk.opens = false then (false, true, d)
  else if disk.written < text.length then (false, true, d.write name (text.take disk.written))
  else if disk.closes = false then (false, true, d.write name text)
  else (true, m, d.write name text)

/-- `sr_core_stacktrace_from_gdb` (lib/core_unwind.c:423-500): the stack trace and whether an error message is set. `core` is the core
dump as it is seen with the executable, `path` what `realpath` gives for the executable. -/
def coreFromGdb (core : Unwind.Core) (path : Option Str) (gdb : Str) : Out (Option CoreTrace × Bool) :=
  if core.opens = false then .ok (none, true) else do
  match ← Gdb.parseTrace gdb with
  | none => .ok (none, true)
  | some (t, _) => .ok (some (Unwind.fromGdb core t path), false)

/-- Either way of getting the stack trace in `create_core_stacktrace` (lib/abrt.c:104-109). -/
def coreTrace (core : Unwind.Core) (path : Option Str) (executable : Str) : Option Str → Out (Option CoreTrace × Bool)
  | some gdb => coreFromGdb core path gdb
  | none => .ok (Unwind.parseCoredump core executable)

/-- `create_core_stacktrace` (lib/abrt.c:91-134): the result, whether `*error_message` has been assigned, and the directory afterwards.
`core` is the file `coredump` as it is seen with an executable. -/
def createCore (core : Str → Unwind.Core) (realpath : Str → Option Str) (disk : Disk) (gdb : Option Str) (d : Dir) :
    Out (Bool × Bool × Dir) :=
  match d.contents c!"executable" with
  | none => .ok (false, true, d)
  | some executable => do
    match ← coreTrace (core executable) (realpath executable) executable gdb with
    | (none, m) => .ok (false, m, d)
    | (some t, m) => .ok (stringToFile disk d c!"core_backtrace" (coreBacktrace t) m)

/-- `sr_abrt_create_core_stacktrace` (lib/abrt.c:151-157). -/
def createFromCore (core : Str → Unwind.Core) (realpath : Str → Option Str) (disk : Disk) (d : Dir) : Out (Bool × Bool × Dir) :=
  createCore core realpath disk none d

/-- `sr_abrt_create_core_stacktrace_from_gdb` (lib/abrt.c:136-149). -/
def createFromGdb (core : Str → Unwind.Core) (realpath : Str → Option Str) (disk : Disk) (gdb : Option Str) (d : Dir) :
    Out (Bool × Bool × Dir) :=
  match gdb with
  | none => .ok (false, true, d)
  | some _ => createCore core realpath disk gdb d

end Satyr.Abrt
