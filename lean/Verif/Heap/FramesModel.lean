import Verif.Heap.ReportDirModel
/-!
# Model of memory: removing frames from threads (lib/generic_thread.c)

The frames of a thread are its member `a`, for all kinds of threads; kernel oopses and the stack traces of JavaScript, Python and Ruby are
threads themselves.
-/
namespace Satyr.Heap

/-- `sr_frame_set_next(prev_frame, q)` (lib/generic_frame.c:53-58), or `sr_thread_set_frames(thread, q)` (lib/generic_thread.c:142-147) if there is
no frame before (lib/generic_thread.c:59-62). -/
def setLink (thread prev q : Ptr) (m : Mem) : Out Mem :=
  if prev ≠ 0 then put prev (fun r => { r with next := q }) m else put thread (fun r => { r with a := q }) m

/-- The loop of `thread_remove_frame` (lib/generic_thread.c:55-70); `sr_frame_free` is lib/generic_frame.c:94-100. -/
def removeLoop (thread frame : Ptr) : Nat → Ptr → Ptr → Mem → Out (Bool × Mem)
  | 0, _, _, _ => .ub
  | n + 1, prev, p, m =>
    if p = 0 then .ok (false, m)
    else
      (readRecord m p).bind fun r =>
      if p = frame then
        (setLink thread prev r.next m).bind fun m =>
        (free n p false m).bind fun m => .ok (true, m)
      else removeLoop thread frame n p r.next m

/-- `sr_thread_remove_frame` (lib/generic_thread.c:194-199) and `thread_remove_frame` (lib/generic_thread.c:49-73), which it calls for every
type; `n` bounds the number of rounds. The types of thread and frame are equal. `sr_gdb_thread_remove_frame` (lib/gdb_thread.c:196-221),
`sr_java_thread_remove_frame` (lib/java_thread.c:184-209) and `sr_koops_stacktrace_remove_frame` (lib/koops_stacktrace.c:165-191) do the same. -/
def removeFrame (n : Nat) (thread frame : Ptr) (m : Mem) : Out (Bool × Mem) :=
  (readRecord m thread).bind fun r => removeLoop thread frame n 0 r.a m

/-- The first loop of `thread_remove_frames_above` (lib/generic_thread.c:79-86): whether the frame is there. -/
def findLoop (frame : Ptr) : Nat → Ptr → Mem → Out Bool
  | 0, _, _ => .ub
  | n + 1, p, m =>
    if p = 0 then .ok false
    else if p = frame then .ok true
    else (readRecord m p).bind fun r => findLoop frame n r.next m

/-- The second loop of `thread_remove_frames_above` (lib/generic_thread.c:91-97). -/
def aboveLoop (thread frame : Ptr) : Nat → Mem → Out Mem
  | 0, _ => .ub
  | n + 1, m =>
    (readRecord m thread).bind fun t =>
    if t.a = frame then .ok m
    else
      (readRecord m t.a).bind fun r =>
      (free n t.a false m).bind fun m =>
      (put thread (fun t => { t with a := r.next }) m).bind fun m => aboveLoop thread frame n m

/-- `sr_thread_remove_frames_above` (lib/generic_thread.c:201-206) and `thread_remove_frames_above` (lib/generic_thread.c:75-100), which it calls
for every type. `sr_gdb_thread_remove_frames_above` (lib/gdb_thread.c:223-249) and `sr_java_thread_remove_frames_above`
(lib/java_thread.c:211-237) do the same. -/
def removeAbove (n : Nat) (thread frame : Ptr) (m : Mem) : Out (Bool × Mem) :=
  (readRecord m thread).bind fun r =>
  (findLoop frame n r.a m).bind fun found =>
  if found = false then .ok (false, m) else (aboveLoop thread frame n m).bind fun m => .ok (true, m)

/-- The loops of `sr_gdb_thread_remove_frames_below_n` and `sr_java_thread_remove_frames_below_n`: the frame before, the first one to go, and the
number of frames to skip. The frames from there on are freed one after the other, as with `siblings`. -/
def belowLoop (thread : Ptr) : Nat → Nat → Ptr → Ptr → Mem → Out Mem
  | 0, _, _, _, _ => .ub
  | n + 1, i, prev, p, m =>
    if p = 0 ∨ i = 0 then (setLink thread prev 0 m).bind fun m => free n p true m
    else (readRecord m p).bind fun r => belowLoop thread n (i - 1) p r.next m

/-- `sr_gdb_thread_remove_frames_below_n` (lib/gdb_thread.c:251-281) and `sr_java_thread_remove_frames_below_n` (lib/java_thread.c:239-269), for
`i` that is not negative (else the program stops, lib/gdb_thread.c:255). -/
def removeBelow (n i : Nat) (thread : Ptr) (m : Mem) : Out Mem :=
  (readRecord m thread).bind fun r => belowLoop thread n i 0 r.a m

end Satyr.Heap
