import Verif.Heap.ReportDirModel
import Verif.Heap.JavaTextModel
import Verif.Heap.KoopsTextModel
import Verif.Heap.TextProps
/-!
# Model of memory: the stack trace of the report of a problem directory (lib/abrt.c)

The report is at `p`; `n` bounds the number of its structures when it is freed. The stack trace of a core dump is a parameter; the type of a
problem directory is never that of JavaScript. The texts of messages for the caller are not modelled: they are empty.
-/
namespace Satyr.Heap
open Satyr.CStr
open Satyr.Abrt (Dir)
open Satyr.Report (ReportType)

/-- `*error_message = sr_location_to_string (&location);` (lib/location.c:52-68; lib/abrt.c:683, 750 and 778): it reads the message of the
location, which must not have been freed. -/
def locationText (A : Allocator) (c : Message) (m : Mem) : Out (Ptr × Mem) :=
  (match c with
    | .block q => readText m q
    | _ => .ok []).bind fun _ => alloc A (.text []) m

/-- A stack trace that the function `parse` reads from the file `backtrace` (lib/abrt.c:661-687 for Python, 729-754 for Java, 756-782 for
Ruby). -/
def traceFile (A : Allocator) (parse : Str → Mem → Message → Out (Ptr × Str × Mem × Message)) (n : Nat) (d : Dir) (p : Ptr) (m : Mem) (e : Ptr) :
    Out (Ptr × Mem × Ptr) :=
  (fileText A d c!"backtrace" m e).bind fun (q, m, e) =>
  if q = 0 then dropReport n p m e
  else
    (readText m q).bind fun t =>
    (parse t m .unset).bind fun (s, _, m, c) =>
    (put p (fun r => { r with c := s }) m).bind fun m =>
    (freeBlock m q).bind fun m =>
    if s = 0 then (locationText A c m).bind fun (z, m) => dropReport n p m z
    else .ok (p, m, e)

/-- A kernel oops (lib/abrt.c:689-727). The function that reads it never returns NULL. -/
def oopsFile (A : Allocator) (n : Nat) (d : Dir) (p : Ptr) (m : Mem) (e : Ptr) : Out (Ptr × Mem × Ptr) :=
  (fileText A d c!"kernel" m e).bind fun (v, m, e) =>
  if v = 0 then dropReport n p m e
  else
    (fileText A d c!"backtrace" m e).bind fun (q, m, e) =>
    if q = 0 then dropReport n p m e
    else
      (readText m q).bind fun t =>
      (koopsTrace A t m).bind fun (s, _, m) =>
      (put s (fun r => { r with texts := r.texts.set 0 v }) m).bind fun m =>
      (put p (fun r => { r with c := s }) m).bind fun m =>
      (freeBlock m q).bind fun m => .ok (p, m, e)

/-- The stack trace of a report with this type (lib/abrt.c:639-842). `core` is what is done for a core dump (lib/abrt.c:639-659); for
JavaScript (lib/abrt.c:784-842) there is no model, and nothing is done. -/
def stackTrace (A : Allocator) (core : Ptr → Mem → Ptr → Out (Ptr × Mem × Ptr)) (n : Nat) (d : Dir) (type : Int) (p : Ptr) (m : Mem) (e : Ptr) :
    Out (Ptr × Mem × Ptr) :=
  if type = ReportType.core.code then core p m e
  else if type = ReportType.python.code then traceFile A (pythonTrace A) n d p m e
  else if type = ReportType.kerneloops.code then oopsFile A n d p m e
  else if type = ReportType.java.code then traceFile A (javaTrace A) n d p m e
  else if type = ReportType.ruby.code then traceFile A (rubyParse A) n d p m e
  else .ok (p, m, e)

/-- `sr_abrt_report_from_dir` (lib/abrt.c:595-845). Each branch returns, or goes on with the report unchanged in its type, so that no other
branch is taken. -/
def reportDir (A : Allocator) (qsort : (Ptr → Ptr → Int) → List Ptr → List Ptr) (core : Ptr → Mem → Ptr → Out (Ptr × Mem × Ptr)) (n : Nat) (d : Dir)
    (errno : Nat) (m : Mem) (e : Ptr) : Out (Ptr × Mem × Ptr) :=
  (reportHead A qsort n d errno m e).bind fun (p, m, e) =>
  if p = 0 then .ok (0, m, e)
  else (readRecord m p).bind fun r => stackTrace A core (n + 8) d (r.data.getD 1 0) p m e

end Satyr.Heap
