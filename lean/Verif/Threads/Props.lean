import Verif.Threads.Model
import Mathlib.Data.List.Nodup
/-!
# C13: frame removal
-/
namespace Satyr.Threads
variable {F : Type}

theorem removeFrame_append (id : Nat) (pre : List (Node F)) (x : Node F) (post : List (Node F)) (hx : x.id = id)
    (hpre : ∀ n ∈ pre, n.id ≠ id) : removeFrame id (pre ++ x :: post) = (true, pre ++ post) := by
  induction pre with
  | nil => simp [removeFrame, hx]
  | cons n pre ih =>
    rw [List.cons_append, removeFrame, if_neg (hpre n (by simp)), ih (fun m hm => hpre m (by simp [hm]))]
    simp

theorem removeFrame_absent (id : Nat) (t : List (Node F)) (h : ∀ n ∈ t, n.id ≠ id) : removeFrame id t = (false, t) := by
  induction t with
  | nil => rfl
  | cons n t ih =>
    rw [removeFrame, if_neg (h n (by simp)), ih (fun m hm => h m (by simp [hm]))]

theorem WF.pre_ne {pre post : List (Node F)} {x : Node F} (h : WF (pre ++ x :: post)) :
    (∀ n ∈ pre, n.id ≠ x.id) ∧ (∀ n ∈ post, n.id ≠ x.id) := by
  unfold WF at h
  rw [List.map_append, List.map_cons, List.nodup_append] at h
  refine ⟨fun n hn he => ?_, fun n hn he => ?_⟩
  · exact h.2.2 n.id (List.mem_map_of_mem hn) x.id (by simp) he
  · have := (List.nodup_cons.1 h.2.1).1
    exact this (he ▸ List.mem_map_of_mem hn)

theorem WF.sublist {s t : List (Node F)} (h : WF t) (hs : s.Sublist t) : WF s :=
  List.Nodup.sublist (hs.map _) h

/-- C13: `sr_thread_remove_frame` removes exactly the given frame and returns true if it is in the thread; otherwise
it returns false and changes nothing. -/
theorem C13_remove_frame (t : List (Node F)) (id : Nat) :
    (∀ pre x post, WF t → t = pre ++ x :: post → x.id = id → removeFrame id t = (true, pre ++ post)) ∧
    ((∀ n ∈ t, n.id ≠ id) → removeFrame id t = (false, t)) := by
  refine ⟨?_, removeFrame_absent id t⟩
  rintro pre x post hwf rfl rfl
  exact removeFrame_append _ pre x post rfl hwf.pre_ne.1

theorem present_append (id : Nat) (pre : List (Node F)) (x : Node F) (post : List (Node F)) (hx : x.id = id) :
    present id (pre ++ x :: post) = true := by
  induction pre with
  | nil => simp [present, hx]
  | cons n pre ih => rw [List.cons_append, present, ih]; simp

theorem present_absent (id : Nat) (t : List (Node F)) (h : ∀ n ∈ t, n.id ≠ id) : present id t = false := by
  induction t with
  | nil => rfl
  | cons n t ih => rw [present, if_neg (h n (by simp)), ih (fun m hm => h m (by simp [hm]))]

theorem dropUntil_append (id : Nat) (pre : List (Node F)) (x : Node F) (post : List (Node F)) (hx : x.id = id)
    (hpre : ∀ n ∈ pre, n.id ≠ id) : dropUntil id (pre ++ x :: post) = .ok (x :: post) := by
  induction pre with
  | nil => simp [dropUntil, hx]
  | cons n pre ih =>
    rw [List.cons_append, dropUntil, if_neg (hpre n (by simp)), ih (fun m hm => hpre m (by simp [hm]))]

theorem removeFramesAbove_append {pre : List (Node F)} {x : Node F} {post : List (Node F)} (hwf : WF (pre ++ x :: post)) :
    removeFramesAbove x.id (pre ++ x :: post) = .ok (true, x :: post) := by
  unfold removeFramesAbove
  rw [present_append x.id pre x post rfl, if_neg (by simp), dropUntil_append x.id pre x post rfl hwf.pre_ne.1]
  rfl

/-- C13: `sr_thread_remove_frames_above` leaves exactly the frames from the given one on; for a frame that is not in
the thread it returns false and changes nothing. It never reads through NULL. -/
theorem C13_remove_frames_above (t : List (Node F)) (id : Nat) :
    (∀ pre x post, WF t → t = pre ++ x :: post → x.id = id → removeFramesAbove id t = .ok (true, x :: post)) ∧
    ((∀ n ∈ t, n.id ≠ id) → removeFramesAbove id t = .ok (false, t)) := by
  refine ⟨?_, fun h => by unfold removeFramesAbove; rw [present_absent id t h, if_pos rfl]⟩
  rintro pre x post hwf rfl rfl
  exact removeFramesAbove_append hwf

theorem walk_eq : ∀ (n : Nat) (t : List (Node F)), walk n t = (t.take n, t.drop n)
  | 0, t => by simp [walk]
  | n + 1, [] => by simp [walk]
  | n + 1, a :: t => by rw [walk, walk_eq n t]; simp

/-- C13: `sr_gdb_thread_remove_frames_below_n` and its Java twin keep exactly the first `n` frames; a negative `n`
stops the program. -/
theorem C13_remove_frames_below (t : List (Node F)) (n : Int) :
    removeFramesBelow n t = if 0 ≤ n then .ok (t.take n.toNat) else .abort := by
  unfold removeFramesBelow
  rw [walk_eq]

/-- C13: the frame count is the number of frames. -/
theorem C13_frame_count (t : List (Node F)) : frameCount t = t.length := by
  induction t with
  | nil => rfl
  | cons n t ih => rw [frameCount, ih, List.length_cons]

example : WF [(⟨1, 'a'⟩ : Node Char), ⟨2, 'b'⟩, ⟨3, 'c'⟩] ∧
    removeFrame 2 [(⟨1, 'a'⟩ : Node Char), ⟨2, 'b'⟩, ⟨3, 'c'⟩] = (true, [⟨1, 'a'⟩, ⟨3, 'c'⟩]) ∧
    removeFramesAbove 2 [(⟨1, 'a'⟩ : Node Char), ⟨2, 'b'⟩, ⟨3, 'c'⟩] = .ok (true, [⟨2, 'b'⟩, ⟨3, 'c'⟩]) := by decide

end Satyr.Threads
