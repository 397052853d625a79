import Verif.Base
/-!
# Linked lists of frames

A frame object in memory is a `Node`: its address (`id`) and its attributes. A thread's frame list is the list of
nodes reached by following the `next` pointers. Pointer comparison is comparison of `id`.
-/
namespace Satyr.Threads

/-- A frame object. -/
structure Node (F : Type) where
  id : Nat
  val : F
  deriving Repr, DecidableEq

variable {F : Type}

/-- Well-formed linked list: no object occurs twice. -/
def WF (t : List (Node F)) : Prop := (t.map (·.id)).Nodup

instance (t : List (Node F)) : Decidable (WF t) := by unfold WF; infer_instance

/-- `thread_remove_frame` (lib/generic_thread.c:49-73), `sr_gdb_thread_remove_frame` (lib/gdb_thread.c:196-221),
`sr_java_thread_remove_frame` (lib/java_thread.c:184-209), `sr_koops_stacktrace_remove_frame`
(lib/koops_stacktrace.c:165-191): unlink the first node found with the given address. -/
def removeFrame (id : Nat) : List (Node F) → Bool × List (Node F)
  | [] => (false, [])
  | n :: t =>
    if n.id = id then (true, t)
    else
      let r := removeFrame id t
      (r.1, n :: r.2)

/-- First loop of `thread_remove_frames_above` (lib/generic_thread.c:79-86): is the frame in the thread? -/
def present (id : Nat) : List (Node F) → Bool
  | [] => false
  | n :: t => if n.id = id then true else present id t

/-- Second loop of `thread_remove_frames_above` (lib/generic_thread.c:92-97). Running off the list would read through
NULL. -/
def dropUntil (id : Nat) : List (Node F) → Out (List (Node F))
  | [] => .ub
  | n :: t => if n.id = id then .ok (n :: t) else dropUntil id t

/-- `thread_remove_frames_above` (lib/generic_thread.c:75-100), `sr_gdb_thread_remove_frames_above`
(lib/gdb_thread.c:223-249), `sr_java_thread_remove_frames_above` (lib/java_thread.c:211-237). -/
def removeFramesAbove (id : Nat) (t : List (Node F)) : Out (Bool × List (Node F)) :=
  if present id t = false then .ok (false, t) else do
  let t ← dropUntil id t
  .ok (true, t)

/-- Loop of `sr_gdb_thread_remove_frames_below_n` (lib/gdb_thread.c:258-267): the frames walked over and the
remaining ones. -/
def walk : Nat → List (Node F) → List (Node F) × List (Node F)
  | 0, t => ([], t)
  | _, [] => ([], [])
  | i + 1, n :: t =>
    let r := walk i t
    (n :: r.1, r.2)

/-- `sr_gdb_thread_remove_frames_below_n` (lib/gdb_thread.c:251-281), `sr_java_thread_remove_frames_below_n`
(lib/java_thread.c:239-269). -/
def removeFramesBelow (n : Int) (t : List (Node F)) : Out (List (Node F)) :=
  if n ≥ 0 then .ok (walk n.toNat t).1 else .abort

/-- `thread_frame_count` (lib/generic_thread.c:35-47). -/
def frameCount : List (Node F) → Nat
  | [] => 0
  | _ :: t => frameCount t + 1

end Satyr.Threads
