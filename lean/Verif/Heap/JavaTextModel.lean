import Verif.Heap.TextModel
import Verif.Text.JavaModel
/-!
# Model of memory: reading Java stack traces from text (lib/java_frame.c:275-563, lib/java_thread.c:304-343, lib/java_stacktrace.c:148-159)

What does not use memory is taken from `Verif/Text/JavaModel.lean`. All messages are constants; the result of a function that may
fail has the message. The members of frames that are not pointers are written at the end; nothing reads them before.
-/
namespace Satyr.Heap
open Satyr.CStr
open Satyr.Text

/-- The path of a class (lib/java_frame.c:455-473). -/
def javaPath (A : Allocator) (p : Ptr) (stop mark cursor : Str) (s : State) : Out (Str × State) :=
  (Java.filePrefix mark cursor).bind fun mark =>
  (skipCharCspan mark stop).bind fun (n, cursor) =>
  if n = 0 then .ok (cursor, s)
  else
    (storeText A p .javaFrame .classPath (strndup mark n) s).bind fun s =>
    (anonymizeMember A p .javaFrame .classPath s).bind fun s => .ok (cursor, s)

/-- `sr_java_frame_parse_frame_url` (lib/java_frame.c:420-480). -/
def javaUrl (A : Allocator) (p : Ptr) (inp : Str) (s : State) : Out (Str × State) :=
  (skipCharCspan inp c!"[\n").bind fun (_, u) =>
  if peek u ≠ '[' then .ok (u, s)
  else
    (advance u).bind fun mark =>
    (skipCharCspan mark c!":\n").bind fun (_, cursor) =>
    if peek cursor ≠ ':' then (Java.pathEnd (none, cursor)).bind fun r => .ok (r.2, s)
    else
      (Java.jarPrefix mark cursor).bind fun j =>
      match j with
      | .inl cursor => .ok (cursor, s)
      | .inr (stop, mark, cursor) =>
        (javaPath A p stop mark cursor s).bind fun (u, s) => (Java.pathEnd (none, u)).bind fun r => .ok (r.2, s)

/-- The source in parentheses (lib/java_frame.c:514-545): whether the method is native, the line, and the rest. -/
def javaSource (A : Allocator) (p : Ptr) (inp : Str) (s : State) : Out (Bool × Nat × Str × State) :=
  if peek inp ≠ '(' then .ok (false, 0, inp, s)
  else
    (advance inp).bind fun mark =>
    (skipCharCspan mark c!":)\n").bind fun (n, u) =>
    (if n ≠ 0 && !startsWith mark Java.nativeMark && !startsWith mark Java.unknownMark then
      (storeText A p .javaFrame .fileName (strndup mark n) s).bind fun s => anonymizeMember A p .javaFrame .fileName s
    else .ok s).bind fun s =>
    (Java.lineNumber u).bind fun (line, u) => .ok (n ≠ 0 && startsWith mark Java.nativeMark, line, u, s)

/-- `sr_java_frame_parse` (lib/java_frame.c:482-563): the frame, or NULL with the message `Frame expected`. -/
def javaFrame (A : Allocator) (inp : Str) (s : State) : Out (Ptr × Str × State) :=
  match (strstrLocation inp c!"at").1 with
  | none => .ok (0, inp, s)
  | some cursor =>
    (skipCharCspan (skipWs (cursor.drop 2)) c!"(\n").bind fun (n, u) =>
    (alloc A (newRecord .javaFrame) s.mem).bind fun (p, m) =>
    (if n ≠ 0 then storeText A p .javaFrame .name (strndup (skipWs (cursor.drop 2)) n) ⟨m, s.err⟩ else .ok ⟨m, s.err⟩).bind fun s =>
    (javaSource A p u s).bind fun (native, line, u, s) =>
    (javaUrl A p u s).bind fun (u, s) =>
    (Java.lineEnd u).bind fun rest =>
    (storeData p [(line : Int), if native then 1 else 0, 0] s).bind fun s => .ok (p, rest, s)

/-- The message of an exception (lib/java_frame.c:296-316). -/
def javaMessage (A : Allocator) (p : Ptr) (inp : Str) (s : State) : Out (Str × State) :=
  if peek inp = ':' then
    (advance inp).bind fun mark =>
    (skipCharCspan (skipWs mark) c!"\n").bind fun (n, u) =>
    if n ≠ 0 then (storeText A p .javaFrame .message (strndup (skipWs mark) n) s).bind fun s => .ok (u, s) else .ok (u, s)
  else (skipCharCspan inp c!"\n").bind fun (_, u) => .ok (u, s)

/-- The name and message of an exception (lib/java_frame.c:279-326): the structure, or NULL with the message
`Expected exception name`. -/
def javaHead (A : Allocator) (inp : Str) (s : State) : Out (Ptr × Str × State) :=
  (skipCharCspan (skipWs inp) c!": \t\n").bind fun (n, u) =>
  if n = 0 then .ok (0, u, s)
  else
    (alloc A (newRecord .javaFrame) s.mem).bind fun (p, m) =>
    (storeData p [0, 0, 1] ⟨m, s.err⟩).bind fun s =>
    (storeText A p .javaFrame .name (strndup (skipWs inp) n) s).bind fun s =>
    (javaMessage A p u s).bind fun (u, s) =>
    (Java.newline u).bind fun u => .ok (p, u, s)

/-- `if (exception->next == NULL) exception->next = parsed; else frame->next = parsed;` (lib/java_frame.c:358-364). -/
def javaLink (e last q : Ptr) (m : Mem) : Out Mem :=
  (readRecord m e).bind fun r => if r.next = 0 then writeRecord m e { r with next := q } else link last q m

/-- The loop over the frames of an exception (lib/java_frame.c:328-367); `last` is `frame`. If it fails, the exception is freed
(lib/java_frame.c:350-354): the structure at `e`, not those after it. -/
def javaFrames (A : Allocator) (e : Ptr) : Nat → Ptr → Str → Mem → Out (Option Java.Ending × Mem)
  | 0, _, _, _ => .ub
  | fuel + 1, last, inp, m =>
    if peek inp = '\x00' then .ok (some (.text inp), m)
    else if startsWith (skipWs inp) c!"... " = true ∨ startsWith (skipWs inp) c!"Suppressed: " = true then .ok (some (.done (skipWs inp)), m)
    else if startsWith (skipWs inp) c!"Caused by: " = true then .ok (some (.cause (skipWs inp)), m)
    else
      (javaFrame A (skipWs inp) ⟨m, none⟩).bind fun (q, u, s) =>
      if q = 0 then (free 16 e false s.mem).bind fun m => .ok (none, m)
      else (javaLink e last q s.mem).bind fun m => javaFrames A e fuel q u m

/-- `sr_java_frame_parse_exception` (lib/java_frame.c:275-413): the first structure or NULL, the rest of the text, and the
message. -/
def javaException (A : Allocator) : Nat → Str → Mem → Out (Ptr × Str × Mem × Str)
  | 0, _, _ => .ub
  | fuel + 1, inp, m =>
    (javaHead A inp ⟨m, none⟩).bind fun (e, u, s) =>
    if e = 0 then .ok (0, [], s.mem, c!"Expected exception name")
    else
      (javaFrames A e (u.length + 1) 0 u s.mem).bind fun (ending, m) =>
      match ending with
      | none => .ok (0, [], m, c!"Frame expected")
      | some ending =>
        (Java.causedBy ending).bind fun c =>
        match c with
        | .inl rest => .ok (e, rest, m, [])
        | .inr u =>
          (javaException A fuel u m).bind fun (q, rest, m, msg) =>
          if q = 0 then (free 16 e false m).bind fun m => .ok (0, [], m, msg)
          else (appendLoop (inp.length + 1) q e m).bind fun m => .ok (q, rest, m, [])

/-- The name of a thread (lib/java_thread.c:308-332): the rest, or the failure. -/
def javaName (A : Allocator) (p : Ptr) (inp : Str) (s : State) : Out (Option Str × State) :=
  if (skipString inp c!"Exception in thread \"").1 = 0 then .ok (some (skipString inp c!"Exception in thread \"").2, s)
  else
    (skipCharCspan (skipString inp c!"Exception in thread \"").2 c!"\"\n").bind fun (n, u) =>
    if peek u ≠ '"' then .ok (none, s)
    else
      (storeText A p .javaThread .name (strndup (skipString inp c!"Exception in thread \"").2 n) s).bind fun s =>
      (advance u).bind fun u => .ok (some u, s)

/-- `sr_java_thread_parse` (lib/java_thread.c:304-343). -/
def javaThread (A : Allocator) (inp : Str) (m : Mem) : Out (Ptr × Str × Mem × Str) :=
  (alloc A (newRecord .javaThread) m).bind fun (p, m) =>
  (javaName A p inp ⟨m, none⟩).bind fun (u, s) =>
  match u with
  | none => (free 16 p false s.mem).bind fun m => .ok (0, [], m, c!"\"Thread\" name end expected")
  | some u =>
    (javaException A (u.length + 1) u s.mem).bind fun (q, rest, m, msg) =>
    (readRecord m p).bind fun r =>
    (writeRecord m p { r with a := q }).bind fun m =>
    if q = 0 then (free 16 p false m).bind fun m => .ok (0, [], m, msg) else .ok (p, rest, m, [])

/-- `sr_java_stacktrace_parse` (lib/java_stacktrace.c:148-159): the stack trace or NULL, the rest of the text, and
`location->message`, which is `c` before. -/
def javaTrace (A : Allocator) (inp : Str) (m : Mem) (c : Message) : Out (Ptr × Str × Mem × Message) :=
  (javaThread A inp m).bind fun (q, rest, m, msg) =>
  if q = 0 then .ok (0, [], m, .constant msg)
  else
    (alloc A (newRecord .javaTrace) m).bind fun (p, m) =>
    (readRecord m p).bind fun r => (writeRecord m p { r with a := q }).bind fun m => .ok (p, rest, m, c)

end Satyr.Heap
