import Verif.Heap.TraceDirModel
import Verif.Heap.JsonModel
import Verif.Json.Text
/-!
# Model of memory: the stack trace of a core dump in a problem directory (lib/abrt.c, lib/core_stacktrace.c)

The memory of the library that reads JSON is not modelled.
-/
namespace Satyr.Heap
open Satyr.CStr
open Satyr.Abrt (Dir)

/-- `sr_core_stacktrace_from_json_text` (lib/core_stacktrace.c:226-251): the stack trace or NULL, memory, and the message. The message of the
library that reads JSON is not modelled: its text is empty. -/
def coreText (A : Allocator) (t : Str) (m : Mem) (e : Ptr) : Out (Ptr × Mem × Ptr) :=
  match Json.parse t with
  | none => (alloc A (.text []) m).bind fun (z, m) => .ok (0, m, z)
  | some j => (read A 3 .coreTrace j ⟨m, some e⟩).bind fun (s, st) => .ok (s, st.mem, st.err.getD e)

/-- The stack trace of a core dump (lib/abrt.c:639-659). -/
def coreFile (A : Allocator) (n : Nat) (d : Dir) (p : Ptr) (m : Mem) (e : Ptr) : Out (Ptr × Mem × Ptr) :=
  (fileText A d c!"core_backtrace" m e).bind fun (q, m, e) =>
  if q = 0 then dropReport n p m e
  else
    (readText m q).bind fun t =>
    (coreText A t m e).bind fun (s, m, e) =>
    (put p (fun r => { r with c := s }) m).bind fun m =>
    (freeBlock m q).bind fun m =>
    if s = 0 then dropReport n p m e else .ok (p, m, e)

end Satyr.Heap
