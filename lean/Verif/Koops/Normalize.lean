import Verif.Frames.Types
import Verif.Threads.Props
import Verif.CStr.Props
/-!
# Normalization of kernel oopses (C17)
-/
namespace Satyr.Koops
open Satyr.CStr Satyr.Threads Satyr.Frames

/-! ## Model -/

/-- The first loop body of `sr_normalize_koops_stacktrace` (lib/koops_stacktrace.c:826-837): `*dot = '\0'`. -/
def cutName (f : KoopsFrame) : KoopsFrame :=
  match f.functionName with
  | none => f
  | some n =>
    match strchr n '.' with
    | some rest => { f with functionName := some (n.take (n.length - rest.length)) }
    | none => f

/-- `blacklist` (lib/koops_stacktrace.c:841-857). -/
def blacklist : List Str :=
  [c!"do_softirq", c!"do_vfs_ioctl", c!"dump_stack", c!"flush_kthread_worker", c!"gs_change", c!"irq_exit",
   c!"kernel_thread_helper", c!"kthread", c!"process_one_work", c!"system_call_fastpath", c!"warn_slowpath_common",
   c!"warn_slowpath_fmt", c!"warn_slowpath_fmt_taint", c!"warn_slowpath_null", c!"worker_thread"]

/-- `bsearch` of the C library over a table of strings with `sr_ptrstrcmp` (lib/utils.c:82-86), the usual halving of
the interval `[l, u)`; `fuel` bounds the number of rounds. -/
def bsearch (key : Option Str) (table : List Str) : Nat → Nat → Nat → Bool
  | 0, _, _ => false
  | fuel + 1, l, u =>
    if l < u then
      let idx := (l + u) / 2
      let c := strcmp0 key (table[idx]?)
      if c < 0 then bsearch key table fuel l idx
      else if c > 0 then bsearch key table fuel (idx + 1) u
      else true
    else false

/-- The call of `bsearch` (lib/koops_stacktrace.c:864-868). -/
def inBlacklist (key : Option Str) : Bool := bsearch key blacklist (blacklist.length + 1) 0 blacklist.length

/-- The second loop (lib/koops_stacktrace.c:859-878); `rest` are the frames still to be visited. -/
def dropBlacklisted : List (Node KoopsFrame) → List (Node KoopsFrame) → Out (List (Node KoopsFrame))
  | [], t => .ok t
  | n :: rest, t =>
    if n.val.moduleName.isNone && inBlacklist n.val.functionName then
      let r := removeFrame n.id t
      if r.1 = false then .abort else dropBlacklisted rest r.2
    else dropBlacklisted rest t

/-- `sr_normalize_koops_stacktrace` (lib/koops_stacktrace.c:820-879). -/
def normalizeKoops (t : List (Node KoopsFrame)) : Out (List (Node KoopsFrame)) :=
  let t := t.map fun n => { n with val := cutName n.val }
  dropBlacklisted t t

/-! ## Specification -/

/-- The name up to the first dot. -/
def beforeDot (n : Str) : Str := n.takeWhile (· ≠ '.')

/-- The frame with its function name cut at the first dot. -/
def undotted (n : Node KoopsFrame) : Node KoopsFrame :=
  { n with val := { n.val with functionName := n.val.functionName.map beforeDot } }

/-! ## Proofs -/

theorem strchr_split (c : Char) : ∀ (s : Str), (c ∉ s ∧ strchr s c = none) ∨
    ∃ rest, strchr s c = some rest ∧ s = s.takeWhile (· ≠ c) ++ rest := by
  intro s
  induction s with
  | nil => left; exact ⟨by simp, rfl⟩
  | cons x s ih =>
    by_cases hx : x = c
    · right; exact ⟨x :: s, by simp [strchr, hx], by simp [hx]⟩
    · rcases ih with ⟨h1, h2⟩ | ⟨rest, h1, h2⟩
      · left
        refine ⟨?_, by simp [strchr, hx, h2]⟩
        rw [List.mem_cons, not_or]
        exact ⟨fun hh => hx hh.symm, h1⟩
      · right
        refine ⟨rest, by simp [strchr, hx, h1], ?_⟩
        rw [List.takeWhile_cons_of_pos (by simpa using hx), List.cons_append, ← h2]

theorem cutName_eq (n : Node KoopsFrame) : ({ n with val := cutName n.val } : Node KoopsFrame) = undotted n := by
  unfold cutName undotted beforeDot
  cases hn : n.val.functionName with
  | none => simp only [Option.map_none]; rw [← hn]
  | some s =>
    simp only [Option.map_some]
    rcases strchr_split '.' s with ⟨h1, h2⟩ | ⟨rest, h1, h2⟩
    · have : s.takeWhile (· ≠ '.') = s := by
        rw [List.takeWhile_eq_self_iff]
        intro x hx
        have : x ≠ '.' := fun hh => h1 (hh ▸ hx)
        simpa using this
      simp only [h2]
      rw [this, ← hn]
    · simp only [h1]
      have e : s.length - rest.length = (s.takeWhile (· ≠ '.')).length := by
        conv => lhs; rw [h2, List.length_append]
        omega
      rw [e]
      have : s.take (s.takeWhile (· ≠ '.')).length = s.takeWhile (· ≠ '.') := take_takeWhile _
      rw [this]

/-- The table is strictly increasing. -/
def Sorted (table : List Str) : Prop := ∀ i j : Nat, i < j → ∀ a b, table[i]? = some a → table[j]? = some b → strcmp a b < 0

theorem sorted_of_chain : ∀ (table : List Str), table.Pairwise (fun a b => strcmp a b < 0) → Sorted table := by
  intro table h i j hij a b ha hb
  obtain ⟨hi, rfl⟩ := List.getElem?_eq_some_iff.1 ha
  obtain ⟨hj, rfl⟩ := List.getElem?_eq_some_iff.1 hb
  exact List.pairwise_iff_getElem.1 h i j hi hj hij

theorem blacklist_sorted : Sorted blacklist := sorted_of_chain _ (by decide +kernel)

theorem bsearch_none (table : List Str) : ∀ (fuel l u : Nat), u ≤ table.length → bsearch none table fuel l u = false := by
  intro fuel
  induction fuel with
  | zero => intro l u _; rfl
  | succ fuel ih =>
    intro l u hu
    unfold bsearch
    split
    · next hlu =>
      have hi : (l + u) / 2 < table.length := by omega
      simp only [List.getElem?_eq_getElem hi, strcmp0]
      rw [if_pos (by decide)]
      exact ih _ _ (by omega)
    · rfl

theorem bsearch_iff (table : List Str) (hs : Sorted table) (k : Str) : ∀ (fuel l u : Nat), u ≤ table.length → u - l < fuel →
    (bsearch (some k) table fuel l u = true ↔ ∃ i, l ≤ i ∧ i < u ∧ table[i]? = some k) := by
  intro fuel
  induction fuel with
  | zero => intro l u _ h; omega
  | succ fuel ih =>
    intro l u hu hf
    unfold bsearch
    by_cases hlu : l < u
    · rw [if_pos hlu]
      have hi : (l + u) / 2 < table.length := by omega
      have hlo : l ≤ (l + u) / 2 := by omega
      have hup : (l + u) / 2 < u := by omega
      generalize (l + u) / 2 = idx at *
      have hg : table[idx]? = some table[idx] := List.getElem?_eq_getElem hi
      simp only [hg, strcmp0]
      generalize table[idx] = a at hg
      have hsw := strcmp_swap k a
      by_cases h1 : strcmp k a < 0
      · rw [if_pos h1, ih l idx (by omega) (by omega)]
        constructor
        · rintro ⟨i, h2, h3, h4⟩; exact ⟨i, h2, by omega, h4⟩
        · rintro ⟨i, h2, h3, h4⟩
          refine ⟨i, h2, ?_, h4⟩
          by_contra hc
          rcases Nat.eq_or_lt_of_le (Nat.le_of_not_lt hc) with h5 | h5
          · subst h5; rw [hg] at h4; cases h4; rw [strcmp_self] at h1; omega
          · have := hs idx i h5 a k hg h4; omega
      · rw [if_neg h1]
        by_cases h2 : strcmp k a > 0
        · rw [if_pos h2, ih (idx + 1) u hu (by omega)]
          constructor
          · rintro ⟨i, h3, h4, h5⟩; exact ⟨i, by omega, h4, h5⟩
          · rintro ⟨i, h3, h4, h5⟩
            refine ⟨i, ?_, h4, h5⟩
            by_contra hc
            rcases Nat.eq_or_lt_of_le (show i ≤ idx by omega) with h6 | h6
            · subst h6; rw [hg] at h5; cases h5; rw [strcmp_self] at h2; omega
            · have := hs i idx h6 k a h5 hg; omega
        · rw [if_neg h2]
          have : strcmp k a = 0 := by omega
          rw [strcmp_eq_zero] at this
          subst this
          simp only [true_iff]
          exact ⟨idx, hlo, hup, hg⟩
    · rw [if_neg hlu]
      simp only [Bool.false_eq_true, false_iff]
      rintro ⟨i, h1, h2, _⟩; omega

theorem inBlacklist_iff (name : Option Str) : inBlacklist name = true ↔ ∃ n ∈ blacklist, name = some n := by
  unfold inBlacklist
  cases name with
  | none => rw [bsearch_none _ _ _ _ (le_refl _)]; simp
  | some k =>
    rw [bsearch_iff _ blacklist_sorted k _ _ _ (le_refl _) (by omega)]
    simp only [Option.some.injEq, exists_eq_right', List.mem_iff_getElem?]
    constructor
    · rintro ⟨i, _, _, h⟩; exact ⟨i, h⟩
    · rintro ⟨i, h⟩; exact ⟨i, by omega, (List.getElem?_eq_some_iff.1 h).1, h⟩

theorem dropBlacklisted_eq : ∀ (rest kept : List (Node KoopsFrame)), WF (kept ++ rest) →
    dropBlacklisted rest (kept ++ rest) =
      .ok (kept ++ rest.filter fun n => !(n.val.moduleName.isNone && inBlacklist n.val.functionName))
  | [], kept, _ => by simp [dropBlacklisted]
  | n :: rest, kept, h => by
    unfold dropBlacklisted
    by_cases hd : (n.val.moduleName.isNone && inBlacklist n.val.functionName) = true
    · rw [if_pos hd, removeFrame_append n.id kept n rest rfl h.pre_ne.1]
      simp only [Bool.true_eq_false, if_false]
      rw [dropBlacklisted_eq rest kept (h.sublist (List.Sublist.append (List.Sublist.refl kept) (List.sublist_cons_self n rest)))]
      rw [List.filter_cons_of_neg (by simp [hd])]
    · rw [if_neg hd]
      have e : kept ++ n :: rest = (kept ++ [n]) ++ rest := by simp
      rw [e] at h ⊢
      rw [dropBlacklisted_eq rest (kept ++ [n]) h, List.filter_cons_of_pos (by simp [hd])]
      simp

/-- The frame belongs to a module or its function is not one of the uninteresting ones. -/
def Kept (n : Node KoopsFrame) : Prop := n.val.moduleName ≠ none ∨ ∀ b ∈ blacklist, n.val.functionName ≠ some b

instance (n : Node KoopsFrame) : Decidable (Kept n) := by unfold Kept; infer_instance

theorem kept_iff (n : Node KoopsFrame) :
    (!(n.val.moduleName.isNone && inBlacklist n.val.functionName)) = decide (Kept n) := by
  rw [Bool.eq_iff_iff, decide_eq_true_iff, Bool.not_eq_true', Bool.and_eq_false_iff]
  unfold Kept
  apply or_congr
  · cases n.val.moduleName <;> simp
  · rw [Bool.eq_false_iff, ne_eq, inBlacklist_iff]
    push Not
    rfl

theorem normalizeKoops_eq (t : List (Node KoopsFrame)) (h : WF t) :
    normalizeKoops t = .ok ((t.map undotted).filter fun n => decide (Kept n)) := by
  unfold normalizeKoops
  have e : (t.map fun n => ({ n with val := cutName n.val } : Node KoopsFrame)) = t.map undotted :=
    List.map_congr_left (fun n _ => cutName_eq n)
  simp only [e]
  have hw : WF ([] ++ t.map undotted) := by
    unfold WF at *
    rw [List.nil_append, List.map_map]
    exact h
  have := dropBlacklisted_eq (t.map undotted) [] hw
  rw [List.nil_append] at this
  rw [this]
  simp only [kept_iff, List.nil_append]

/-! ## C17 -/

/-- C17: exactly the frames that belong to a module or whose name up to the first dot is not on the list stay, in
order, with their names cut at the first dot. -/
theorem C17_filter (t : List (Node KoopsFrame)) (h : WF t) :
    normalizeKoops t = .ok ((t.map undotted).filter fun n => decide (Kept n)) := normalizeKoops_eq t h

/-- C17: the search in the list of uninteresting functions finds exactly its members. -/
theorem C17_search (name : Option Str) : inBlacklist name = true ↔ ∃ n ∈ blacklist, name = some n := inBlacklist_iff name

theorem beforeDot_idem (n : Str) : beforeDot (beforeDot n) = beforeDot n := by
  unfold beforeDot
  rw [List.takeWhile_takeWhile]
  simp

/-- C17: normalizing twice is the same as normalizing once. -/
theorem C17_idempotent (t : List (Node KoopsFrame)) (h : WF t) :
    ∃ r, normalizeKoops t = .ok r ∧ normalizeKoops r = .ok r := by
  refine ⟨_, normalizeKoops_eq t h, ?_⟩
  have hw : WF ((t.map undotted).filter fun n => decide (Kept n)) := by
    apply WF.sublist (t := t.map undotted) _ List.filter_sublist
    unfold WF at *
    rw [List.map_map]
    exact h
  rw [normalizeKoops_eq _ hw]
  have e : ((t.map undotted).filter fun n => decide (Kept n)).map undotted =
      (t.map undotted).filter fun n => decide (Kept n) := by
    conv => rhs; rw [← List.map_id ((t.map undotted).filter fun n => decide (Kept n))]
    apply List.map_congr_left
    intro n hn
    obtain ⟨m, _, rfl⟩ := List.mem_map.1 (List.mem_filter.1 hn).1
    unfold undotted
    simp only [Option.map_map, id]
    congr 2
    cases m.val.functionName with
    | none => rfl
    | some s => simp [beforeDot_idem]
  rw [e, List.filter_filter]
  simp

/-! ### Non-vacuity -/

/-- A frame of the kernel or of a module. -/
def mkKoops (id : Nat) (name : Option Str) (mod : Option Str) : Node KoopsFrame :=
  ⟨id, { functionName := name, moduleName := mod }⟩

example : WF [mkKoops 0 (some c!"kthread") none, mkKoops 1 (some c!"kthread") (some c!"m"),
    mkKoops 2 (some c!"foo.isra.1") none, mkKoops 3 none none, mkKoops 4 (some c!"irq_exit.part.2") none] := by
  decide
example : normalizeKoops [mkKoops 0 (some c!"kthread") none, mkKoops 1 (some c!"kthread") (some c!"m"),
    mkKoops 2 (some c!"foo.isra.1") none, mkKoops 3 none none, mkKoops 4 (some c!"irq_exit.part.2") none] =
    .ok [mkKoops 1 (some c!"kthread") (some c!"m"), mkKoops 2 (some c!"foo") none, mkKoops 3 none none] := by
  decide +kernel

end Satyr.Koops
