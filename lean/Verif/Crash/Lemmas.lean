import Verif.Crash.Model
import Verif.Frames.CmpProps
import Verif.Normalize.Props
import Mathlib.Tactic.Linarith
import Mathlib.Algebra.Order.Field.Basic
/-!
# Lemmas about crash thread search
-/
namespace Satyr.Crash
open Satyr.CStr Satyr.Normalize Satyr.Frames Satyr.Threads

theorem nodes_val {F : Type} (fs : List F) : (nodes fs).map Node.val = fs := by
  unfold nodes
  rw [List.map_map]
  exact List.zipIdx_map_fst 0 fs

theorem nodes_wf {F : Type} (fs : List F) : WF (nodes fs) := by
  unfold WF nodes
  rw [List.map_map]
  have : (Node.id ∘ fun p : F × Nat => (⟨p.2, p.1⟩ : Node F)) = Prod.snd := rfl
  rw [this, List.zipIdx_map_snd]
  exact List.nodup_range'

/-- The threads with their positions that satisfy `p`. -/
def cands (p : GdbThread → Bool) (i : Nat) (ts : List GdbThread) : List (Nat × GdbThread) :=
  ((ts.zipIdx i).filter fun q => p q.1).map fun q => (q.2, q.1)

theorem cands_cons (p : GdbThread → Bool) (i : Nat) (t : GdbThread) (ts : List GdbThread) :
    cands p i (t :: ts) = if p t then (i, t) :: cands p (i + 1) ts else cands p (i + 1) ts := by
  unfold cands
  rw [List.zipIdx_cons, List.filter_cons]
  split <;> simp

theorem mem_cands {p : GdbThread → Bool} {ts : List GdbThread} {i : Nat} {t : GdbThread} :
    (i, t) ∈ cands p 0 ts ↔ ts[i]? = some t ∧ p t = true := by
  unfold cands
  simp only [List.mem_map, List.mem_filter, Prod.mk.injEq, Prod.exists, List.mem_zipIdx_iff_getElem?]
  constructor
  · rintro ⟨a, b, ⟨h1, h2⟩, rfl, rfl⟩; exact ⟨h1, h2⟩
  · rintro ⟨h1, h2⟩; exact ⟨t, i, ⟨h1, h2⟩, rfl, rfl⟩

theorem cands_nodup (p : GdbThread → Bool) (ts : List GdbThread) : (cands p 0 ts).Nodup := by
  unfold cands
  apply List.Nodup.of_map Prod.fst
  rw [List.map_map]
  have : (Prod.fst ∘ fun q : GdbThread × Nat => (q.2, q.1)) = Prod.snd := rfl
  rw [this]
  refine List.Nodup.sublist (List.Sublist.map _ List.filter_sublist) ?_
  rw [List.zipIdx_map_snd]
  exact List.nodup_range'

/-- What the loop tests at each thread. -/
def isCand (req : Requirement) (name : Str) (t : GdbThread) : Bool := sameName name t && abortSatisfied req t

/-- The only element of a list with one element. -/
def only {A : Type} : List A → Option A
  | [x] => some x
  | _ => none

theorem findLoop_unique (req : Requirement) (hr : req ≠ .firstMatching) (name : Str) (ts : List GdbThread) :
    ∀ (i : Nat) (r : Option (Nat × GdbThread)),
      findLoop req name i ts r = only (r.toList ++ cands (isCand req name) i ts) := by
  induction ts with
  | nil => intro i r; cases r <;> rfl
  | cons t ts ih =>
    intro i r
    rw [findLoop.eq_def, cands_cons]
    unfold isCand
    dsimp only
    split
    · cases r with
      | none => simp only [ih, Option.toList]; rfl
      | some r => simp [only]
    · rw [ih]; rfl

/-- The running minimum of the last search. -/
def minBy (r : Nat × GdbThread) (q : Nat × GdbThread) : Nat × GdbThread :=
  if framesCmp q.2.frames r.2.frames < 0 then q else r

theorem findLoop_first (name : Str) (ts : List GdbThread) : ∀ (i : Nat),
    (∀ r, findLoop .firstMatching name i ts (some r) =
      some ((cands (isCand .firstMatching name) i ts).foldl minBy r)) ∧
    findLoop .firstMatching name i ts none =
      match cands (isCand .firstMatching name) i ts with
      | [] => none
      | c :: cs => some (cs.foldl minBy c) := by
  induction ts with
  | nil => intro i; exact ⟨fun _ => rfl, rfl⟩
  | cons t ts ih =>
    intro i
    refine ⟨fun r => ?_, ?_⟩
    · rw [findLoop, cands_cons]
      unfold isCand
      split
      · simp only [ne_eq, not_true_eq_false, if_false, List.foldl_cons]
        by_cases hc : framesCmp t.frames r.2.frames < 0
        · rw [if_pos hc, (ih _).1]
          unfold minBy; rw [if_pos hc]; rfl
        · rw [if_neg hc, (ih _).1]
          unfold minBy; rw [if_neg hc]; rfl
      · exact (ih _).1 r
    · rw [findLoop, cands_cons]
      unfold isCand
      split
      · exact (ih _).1 _
      · exact (ih _).2

theorem foldl_minBy_mem (cs : List (Nat × GdbThread)) : ∀ r, cs.foldl minBy r ∈ r :: cs := by
  induction cs with
  | nil => intro r; simp
  | cons c cs ih =>
    intro r
    rw [List.foldl_cons]
    have := ih (minBy r c)
    have h2 : minBy r c = c ∨ minBy r c = r := by unfold minBy; split <;> simp
    rcases List.mem_cons.1 this with h | h
    · rw [h]; rcases h2 with h2 | h2 <;> rw [h2] <;> simp
    · simp [h]

theorem order_frames {P : GdbFrame → Prop} {K : Type} {key : GdbFrame → K} (h : OrderOn P (gdbCmp true) key) :
    OrderOn (fun fs : List GdbFrame => ∀ f ∈ fs, P f) framesCmp (fun fs => fs.map key) := h.list

theorem foldl_minBy_le {P : GdbFrame → Prop} {K : Type} {key : GdbFrame → K} (h : OrderOn P (gdbCmp true) key)
    (cs : List (Nat × GdbThread)) : ∀ r : Nat × GdbThread, (∀ q ∈ r :: cs, ∀ f ∈ q.2.frames, P f) →
      ∀ q ∈ r :: cs, framesCmp (cs.foldl minBy r).2.frames q.2.frames ≤ 0 := by
  have ho := order_frames h
  have hrefl : ∀ a : List GdbFrame, (∀ f ∈ a, P f) → framesCmp a a ≤ 0 := fun a ha => by
    exact Int.le_of_eq ((ho.3 a a ha ha).2 rfl)
  induction cs with
  | nil =>
    intro r hp q hq
    simp only [List.mem_singleton] at hq
    subst hq
    exact hrefl _ (hp _ (by simp))
  | cons c cs ih =>
    intro r hp q hq
    rw [List.foldl_cons]
    have hr := hp r (by simp)
    have hc := hp c (by simp)
    have hm : minBy r c = c ∨ minBy r c = r := by unfold minBy; split <;> simp
    have hpm : ∀ q ∈ minBy r c :: cs, ∀ f ∈ q.2.frames, P f := by
      intro x hx
      rcases List.mem_cons.1 hx with hx | hx
      · rw [hx]; rcases hm with hm | hm <;> rw [hm] <;> assumption
      · exact hp x (by simp [hx])
    have hres := foldl_minBy_mem cs (minBy r c)
    have hPres := hpm _ hres
    have h1 := ih (minBy r c) hpm (minBy r c) (by simp)
    have hmr : framesCmp (minBy r c).2.frames r.2.frames ≤ 0 := by
      unfold minBy; split
      · omega
      · exact hrefl _ hr
    have hmc : framesCmp (minBy r c).2.frames c.2.frames ≤ 0 := by
      unfold minBy; split
      · exact hrefl _ hc
      · next hn =>
        rw [ho.le_swap hc hr]; omega
    have hPm := hpm (minBy r c) (by simp)
    rcases List.mem_cons.1 hq with hq | hq
    · subst hq; exact ho.2 _ _ _ hPres hPm hr h1 hmr
    · rcases List.mem_cons.1 hq with hq | hq
      · subst hq; exact ho.2 _ _ _ hPres hPm hc h1 hmc
      · exact ih (minBy r c) hpm q (by simp [hq])

theorem findTid_spec (tid : Nat) (ts : List GdbThread) : ∀ i,
    (∀ j, findTid tid i ts = some j ↔ i ≤ j ∧ (∃ t, ts[j - i]? = some t ∧ t.tid = tid) ∧
      ∀ k t, k < j - i → ts[k]? = some t → t.tid ≠ tid) ∧
    (findTid tid i ts = none ↔ ∀ t ∈ ts, t.tid ≠ tid) := by
  induction ts with
  | nil => intro i; simp [findTid]
  | cons t ts ih =>
    intro i
    rw [findTid]
    split
    · next h =>
      refine ⟨fun j => ?_, by simp [h]⟩
      simp only [Option.some.injEq]
      constructor
      · rintro rfl
        exact ⟨Nat.le_refl _, ⟨t, by simp, h⟩, fun k _ hk => by omega⟩
      · rintro ⟨h1, _, h3⟩
        by_contra hne
        exact h3 0 t (by omega) (by simp) h
    · next h =>
      refine ⟨fun j => ?_, ?_⟩
      · rw [(ih (i + 1)).1 j]
        constructor
        · rintro ⟨h1, ⟨u, hu, hut⟩, h3⟩
          refine ⟨by omega, ⟨u, ?_, hut⟩, ?_⟩
          · rw [show j - i = (j - (i + 1)) + 1 by omega, List.getElem?_cons_succ]; exact hu
          · intro k v hk hv
            cases k with
            | zero => simp at hv; subst hv; exact h
            | succ k => rw [List.getElem?_cons_succ] at hv; exact h3 k v (by omega) hv
        · rintro ⟨h1, ⟨u, hu, hut⟩, h3⟩
          have hij : j ≠ i := by
            rintro rfl
            rw [Nat.sub_self] at hu; simp at hu; subst hu; exact h hut
          refine ⟨by omega, ⟨u, ?_, hut⟩, ?_⟩
          · rw [show j - i = (j - (i + 1)) + 1 by omega, List.getElem?_cons_succ] at hu; exact hu
          · intro k v hk hv
            exact h3 (k + 1) v (by omega) (by rw [List.getElem?_cons_succ]; exact hv)
      · rw [(ih (i + 1)).2]
        simp [h]

theorem findExit_isSome {F : Type} (p : F → Bool) (t : List (Node F)) : ∀ r,
    (findExit p t r).isSome = (r.isSome || t.any fun n => p n.val) := by
  induction t with
  | nil => intro r; simp [findExit]
  | cons n t ih =>
    intro r
    rw [findExit, ih, List.any_cons]
    cases hn : p n.val <;> simp

/-- A thread with its frames normalized. -/
def normThread (t : GdbThread) : GdbThread := { t with frames := (pipeline gdbOps (nodes t.frames)).map Node.val }

theorem normalizeThread_eq (t : GdbThread) : normalizeThread t = .ok (normThread t) := by
  unfold normalizeThread
  rw [normalizeGdb_eq _ (nodes_wf _)]
  rfl

theorem normalizeThreads_eq (ts : List GdbThread) : normalizeThreads ts = .ok (ts.map normThread) := by
  induction ts with
  | nil => rfl
  | cons t ts ih => rw [normalizeThreads, normalizeThread_eq, ih]; rfl

/-- A stack trace with threads and crash frame normalized. -/
def normTrace (s : GdbTrace) : GdbTrace :=
  { s with threads := s.threads.map normThread, crash := s.crash.map normalizeGdbFrame }

/-- The normalized stack trace. -/
theorem normalizeTrace_eq (s : GdbTrace) : normalizeTrace s = .ok (normTrace (rememberCrashTid s)) := by
  unfold normalizeTrace
  simp only [normalizeThreads_eq, Out.bind_ok]
  rfl

end Satyr.Crash
