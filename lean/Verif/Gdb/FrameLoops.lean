import Verif.Gdb.FrameModel
import Mathlib.Tactic.Set
/-!
# The loops of the frame reader: what is copied is what is read, and when the text is not left
-/
namespace Satyr.Gdb
open Satyr.CStr Satyr.Normalize Satyr.Frames

/-- The text ends with a newline. -/
def EndsNl (s : Str) : Prop := s.getLast? = some '\n'

instance (s : Str) : Decidable (EndsNl s) := by unfold EndsNl; infer_instance

theorem endsNl_nil : ¬ EndsNl [] := by simp [EndsNl]

theorem EndsNl.ne {s : Str} (h : EndsNl s) : s ≠ [] := by rintro rfl; exact endsNl_nil h

theorem EndsNl.right {a b : Str} (h : EndsNl (a ++ b)) (ha : ¬ EndsNl a) : EndsNl b := by
  cases b with
  | nil => rw [List.append_nil] at h; exact absurd h ha
  | cons c t => unfold EndsNl at h ⊢; rwa [List.getLast?_append_of_ne_nil _ (by simp)] at h

theorem EndsNl.tail {c : Char} {s : Str} (h : EndsNl (c :: s)) (hc : c ≠ '\n') : EndsNl s :=
  EndsNl.right (a := [c]) h (by simpa [EndsNl] using hc)

theorem not_endsNl_append {a b : Str} (ha : ¬ EndsNl a) (hb : ¬ EndsNl b) : ¬ EndsNl (a ++ b) := fun h => hb (h.right ha)

theorem not_endsNl_cons {c : Char} {s : Str} (hc : c ≠ '\n') (hs : ¬ EndsNl s) : ¬ EndsNl (c :: s) := fun h => hs (h.tail hc)

/-- What was copied and the rest make up the text, and the copy does not end with a newline. -/
def Reads (s : Str) (r : Str × Str) : Prop := r.1 ++ r.2 = s ∧ ¬ EndsNl r.1

/-- The same for a reader that may read nothing; otherwise it reads at least one character. -/
def OptReads (s : Str) (o : Option (Str × Str)) : Prop := ∀ r, o = some r → Reads s r ∧ r.1 ≠ []

theorem Reads.rest {s : Str} {r : Str × Str} (h : Reads s r) (hs : EndsNl s) : EndsNl r.2 :=
  EndsNl.right (a := r.1) (by rwa [h.1]) h.2

theorem Reads.len {s : Str} {r : Str × Str} (h : Reads s r) : r.1.length + r.2.length = s.length := by
  rw [← h.1, List.length_append]

theorem OptReads.none {s : Str} : OptReads s none := by intro r h; cases h

theorem OptReads.some {s : Str} {r : Str × Str} (h : Reads s r) (hne : r.1 ≠ []) : OptReads s (some r) := by
  rintro _ ⟨⟩; exact ⟨h, hne⟩

/-! ## Operators -/

theorem firstOp_some {s : Str} : ∀ {l : List Str} {r : Str × Str}, firstOp s l = some r →
    ∃ x ∈ l, r.1 = c!"operator" ++ x ∧ s = x ++ r.2
  | [], r, h => by simp [firstOp] at h
  | x :: xs, r, h => by
    rw [firstOp] at h
    split at h
    · rename_i h0
      rcases skipString_cases s x with ⟨b, hb, hs⟩ | hs
      · rw [hs] at h
        cases h
        exact ⟨x, by simp, rfl, hb⟩
      · rw [hs] at h0; exact absurd h0 (by simp)
    · obtain ⟨y, hy, h1, h2⟩ := firstOp_some h
      exact ⟨y, by simp [hy], h1, h2⟩

theorem firstOp_none {s : Str} : ∀ {l : List Str}, (∀ x ∈ l, startsWith s x = false) → firstOp s l = none
  | [], _ => rfl
  | x :: xs, h => by
    rw [firstOp, skipString_not (h x (by simp)), if_neg (by simp)]
    exact firstOp_none fun y hy => h y (by simp [hy])

theorem parseOperator_some {s : Str} {r : Str × Str} (h : parseOperator s = some r) :
    ∃ x ∈ operators, r.1 = c!"operator" ++ x ∧ s = c!"operator" ++ x ++ r.2 := by
  unfold parseOperator at h
  split at h
  · cases h
  · rename_i h0
    rcases skipString_cases s c!"operator" with ⟨b, hb, hs⟩ | hs
    · rw [hs] at h
      obtain ⟨x, hx, h1, h2⟩ := firstOp_some h
      refine ⟨x, hx, h1, ?_⟩
      dsimp only at h2
      rw [hb, h2, List.append_assoc]
    · rw [hs] at h0; exact absurd rfl h0

theorem operators_ends : ∀ x ∈ operators, ¬ EndsNl (c!"operator" ++ x) := by decide +kernel

theorem parseOperator_reads {s : Str} {r : Str × Str} (h : parseOperator s = some r) : Reads s r := by
  obtain ⟨x, hx, h1, h2⟩ := parseOperator_some h
  refine ⟨by rw [h1, h2], ?_⟩
  rw [h1]
  exact operators_ends x hx

theorem afterOperator_yields (s : Str) : Yields (afterOperator s) (Reads s) := by
  unfold afterOperator
  by_cases h : peek s = ' '
  · obtain ⟨t, rfl⟩ : ∃ t, s = ' ' :: t := by
      cases s with
      | nil => exact absurd h (by decide)
      | cons c t => exact ⟨t, by rw [show c = ' ' from h]⟩
    rw [skipChar_cons (by decide), Out.bind_ok]
    refine Yields.ite (fun h => Bool.noConfusion h) fun _ => ?_
    dsimp only
    by_cases h2 : peek t = '('
    · obtain ⟨u, rfl⟩ : ∃ u, t = '(' :: u := by
        cases t with
        | nil => exact absurd h2 (by decide)
        | cons c t => exact ⟨t, by rw [show c = '(' from h2]⟩
      rw [skipChar_cons (by decide), Out.bind_ok]
      exact .ok ⟨rfl, endsNl_nil⟩
    · rw [skipChar_not (by decide) h2, Out.bind_ok]
      exact .ok ⟨rfl, by dsimp only; decide⟩
  · rw [skipChar_not (by decide) h, Out.bind_ok]
    exact .ok ⟨rfl, endsNl_nil⟩

theorem chunkOperator_yields (s : Str) : Yields (chunkOperator s) (Reads s) := by
  unfold chunkOperator
  cases h : parseOperator s with
  | none => exact .ok ⟨rfl, endsNl_nil⟩
  | some r =>
    obtain ⟨x, t⟩ := r
    have h1 := parseOperator_reads h
    refine (afterOperator_yields t).bind fun q hq => .ok ⟨?_, not_endsNl_append h1.2 hq.2⟩
    have h2 := h1.1
    dsimp only at h2 ⊢
    rw [List.append_assoc, hq.1, h2]

/-! ## Chunks -/

theorem nl_stop {c : Char} {sp : Bool} (h : ¬ (strchrHas nameChars c = false ∧ (sp = false ∨ strchrHas c!" " c = false))) : c ≠ '\n' := by
  rintro rfl
  exact h ⟨by decide, .inr (by decide)⟩

theorem chunkLoop_post (sp : Bool) : ∀ (n : Nat) (s : Str), Post (chunkLoop sp n s) (Reads s)
  | 0, s => Post.ub
  | n + 1, s => by
    unfold chunkLoop
    refine Post.ite (fun _ => .ok ⟨rfl, endsNl_nil⟩) fun _ => ?_
    refine (chunkOperator_yields s).post.bind fun r hr => ?_
    refine Post.ite (fun _ => .ok hr) fun h => ?_
    obtain ⟨x, t⟩ := r
    cases t with
    | nil => exact Post.ub
    | cons c t =>
      show Post (Out.ok t >>= _) _
      rw [Out.bind_ok]
      refine (chunkLoop_post sp n t).bind fun q hq => .ok ⟨?_, ?_⟩
      · have h1 := hr.1
        dsimp only [peek_cons] at h1 ⊢
        rw [List.append_assoc, List.cons_append, hq.1, h1]
      · exact not_endsNl_append hr.2 (not_endsNl_cons (nl_stop h) hq.2)

theorem chunkLoop_fine (sp : Bool) : ∀ (n : Nat) (s : Str), EndsNl s → s.length < n → Fine (chunkLoop sp n s)
  | 0, s, _, h => by omega
  | n + 1, s, he, h => by
    unfold chunkLoop
    refine Fine.ite (fun _ => .ok _) fun _ => ?_
    obtain ⟨r, hr, hq⟩ := chunkOperator_yields s
    rw [hr, Out.bind_ok]
    refine Fine.ite (fun _ => .ok _) fun h2 => ?_
    obtain ⟨x, t⟩ := r
    have h3 := hq.rest he
    have h4 := hq.len
    cases t with
    | nil => exact absurd h3 endsNl_nil
    | cons c t =>
      dsimp only at h4
      rw [List.length_cons] at h4
      show Fine (Out.ok t >>= _)
      rw [Out.bind_ok]
      exact (chunkLoop_fine sp n t (h3.tail (nl_stop h2)) (by omega)).bind fun _ _ => .ok _

theorem chunk_post (sp : Bool) (s : Str) : Post (chunk sp s) (OptReads s) := by
  unfold chunk
  refine (chunkLoop_post sp _ s).bind fun r hr => .ok ?_
  split
  · exact OptReads.none
  · rename_i h; exact OptReads.some hr h

theorem chunk_fine (sp : Bool) {s : Str} (h : EndsNl s) : Fine (chunk sp s) := by
  unfold chunk
  exact (chunkLoop_fine sp _ s h (by omega)).bind fun _ _ => .ok _

/-- More fuel than the text is long changes nothing. -/
theorem chunkLoop_fuel (sp : Bool) : ∀ (n m : Nat) (s : Str), s.length < n → s.length < m → chunkLoop sp n s = chunkLoop sp m s
  | 0, _, s, h, _ => by omega
  | _ + 1, 0, s, _, h => by omega
  | n + 1, m + 1, s, hn, hm => by
    unfold chunkLoop
    by_cases h0 : peek s = '\x00'
    · rw [if_pos h0, if_pos h0]
    · rw [if_neg h0, if_neg h0]
      obtain ⟨r, hr, hq⟩ := chunkOperator_yields s
      rw [hr, Out.bind_ok, Out.bind_ok]
      obtain ⟨x, t⟩ := r
      have h4 := hq.len
      split
      · rfl
      · cases t with
        | nil => rfl
        | cons c t =>
          dsimp only at h4
          rw [List.length_cons] at h4
          show (Out.ok t >>= _) = (Out.ok t >>= _)
          rw [Out.bind_ok, Out.bind_ok, chunkLoop_fuel sp n m t (by omega) (by omega)]

/-! ## Brackets -/

theorem templateArgsLoop_split : ∀ (s : Str) (d : Nat), (templateArgsLoop d s).1 ++ (templateArgsLoop d s).2 = s
  | [], d => by rw [templateArgsLoop]; rfl
  | c :: s, d => by
    rw [templateArgsLoop]
    split
    · rw [List.cons_append, templateArgsLoop_split s]
    · split
      · split
        · rfl
        · rw [List.cons_append, templateArgsLoop_split s]
      · rw [List.cons_append, templateArgsLoop_split s]

theorem templateArgs_yields (s : Str) : Yields (templateArgs s) (OptReads s) := by
  unfold templateArgs
  refine Yields.ite (fun _ => .ok OptReads.none) fun h0 => ?_
  rcases skipString_cases s c!" [with " with ⟨b, hb, hs⟩ | hs
  · rw [hs]
    dsimp only
    have h1 := templateArgsLoop_split b 1
    generalize templateArgsLoop 1 b = r at h1
    by_cases h : peek r.2 = ']'
    · obtain ⟨t, ht⟩ : ∃ t, r.2 = ']' :: t := by
        cases hr : r.2 with
        | nil => rw [hr] at h; exact absurd h (by decide)
        | cons c t => rw [hr] at h; exact ⟨t, by rw [show c = ']' from h]⟩
      rw [ht, skipChar_cons (by decide), Out.bind_ok]
      refine .ok (OptReads.some ⟨?_, ?_⟩ (by simp))
      · dsimp only
        rw [hb, ← h1, ht]
        simp
      · unfold EndsNl
        rw [List.getLast?_append_of_ne_nil _ (by simp)]
        decide
    · rw [skipChar_not (by decide) h, Out.bind_ok]
      exact .ok OptReads.none
  · rw [hs] at h0; exact absurd rfl h0

theorem orElse_post {s : Str} {x y : Out (Option (Str × Str))} (hx : Post x (OptReads s)) (hy : Post y (OptReads s)) :
    Post (orElse x y) (OptReads s) := by
  unfold orElse
  refine hx.bind fun r hr => ?_
  cases r with
  | none => exact hy
  | some a => exact .ok hr

theorem orElse_fine {x y : Out (Option (Str × Str))} (hx : Fine x) (hy : Fine y) : Fine (orElse x y) := by
  unfold orElse
  refine hx.bind fun r _ => ?_
  cases r with
  | none => exact hy
  | some a => exact .ok _

theorem peek_split {s : Str} {c : Char} (h : peek s = c) (hc : c ≠ '\x00') : ∃ t, s = c :: t := by
  cases s with
  | nil => exact absurd h.symm hc
  | cons x t => exact ⟨t, by rw [show x = c from h]⟩

theorem bracket_post {l r : Char} (hl0 : l ≠ '\x00') (hr0 : r ≠ '\x00') (hr : r ≠ '\n') {f : Str → Out (Str × Str)} {s : Str}
    (hf : ∀ t, s = l :: t → Post (f t) (fun q => q.1 ++ q.2 = t)) : Post (bracket l r f s) (OptReads s) := by
  unfold bracket
  by_cases h : peek s = l
  · obtain ⟨t, rfl⟩ := peek_split h hl0
    rw [skipChar_cons hl0, Out.bind_ok]
    refine Post.ite (fun h => Bool.noConfusion h) fun _ => ?_
    refine (hf t rfl).bind fun q hq => ?_
    by_cases h2 : peek q.2 = r
    · obtain ⟨u, hu⟩ := peek_split h2 hr0
      rw [hu, skipChar_cons hr0, Out.bind_ok]
      refine .ok (OptReads.some ⟨?_, ?_⟩ (by simp))
      · dsimp only
        rw [← hq, hu]
        simp
      · dsimp only
        rw [← List.cons_append]
        unfold EndsNl
        rw [List.getLast?_append_of_ne_nil _ (by simp)]
        simpa using hr
    · rw [skipChar_not hr0 h2, Out.bind_ok]
      exact .ok OptReads.none
  · rw [skipChar_not hl0 h, Out.bind_ok]
    exact .ok OptReads.none

theorem bracket_fine {l r : Char} (hl0 : l ≠ '\x00') (hr0 : r ≠ '\x00') {f : Str → Out (Str × Str)} {s : Str}
    (hf : ∀ t, s = l :: t → Fine (f t)) : Fine (bracket l r f s) := by
  unfold bracket
  by_cases h : peek s = l
  · obtain ⟨t, rfl⟩ := peek_split h hl0
    rw [skipChar_cons hl0, Out.bind_ok]
    refine Fine.ite (fun h => Bool.noConfusion h) fun _ => ?_
    exact (hf t rfl).bind fun q _ => (skipChar_fine q.2 hr0).bind fun _ _ => .ok _
  · rw [skipChar_not hl0 h, Out.bind_ok]
    exact .ok _

/-- Two inner readers that agree on the text after the bracket. -/
theorem bracket_congr {l r : Char} (hl0 : l ≠ '\x00') {f g : Str → Out (Str × Str)} {s : Str}
    (h : ∀ t, s = l :: t → f t = g t) : bracket l r f s = bracket l r g s := by
  unfold bracket
  by_cases h0 : peek s = l
  · obtain ⟨t, rfl⟩ := peek_split h0 hl0
    rw [skipChar_cons hl0, Out.bind_ok, Out.bind_ok]
    dsimp only
    rw [h t rfl]
  · rw [skipChar_not hl0 h0, Out.bind_ok, Out.bind_ok]
    rfl

theorem rep_post {p : Str → Out (Option (Str × Str))} {f : Str → Out (Str × Str)} {s : Str} (hp : Post (p s) (OptReads s))
    (hf : ∀ t, Post (f t) (Reads t)) : Post (rep p f s) (Reads s) := by
  unfold rep
  refine hp.bind fun o ho => ?_
  cases o with
  | none => exact .ok ⟨rfl, endsNl_nil⟩
  | some r =>
    obtain ⟨x, t⟩ := r
    obtain ⟨h1, h2⟩ := ho _ rfl
    refine (hf t).bind fun q hq => .ok ⟨?_, not_endsNl_append h1.2 hq.2⟩
    have h3 := h1.1
    dsimp only at h3 ⊢
    rw [List.append_assoc, hq.1, h3]

theorem rep_fine {p : Str → Out (Option (Str × Str))} {f : Str → Out (Str × Str)} {s : Str} (hp : Fine (p s))
    (hpp : Post (p s) (OptReads s)) (he : EndsNl s) (hf : ∀ t, EndsNl t → t.length < s.length → Fine (f t)) : Fine (rep p f s) := by
  unfold rep
  obtain ⟨o, ho⟩ := hp
  have := hpp o ho
  rw [ho, Out.bind_ok]
  cases o with
  | none => exact .ok _
  | some r =>
    obtain ⟨x, t⟩ := r
    obtain ⟨h1, h2⟩ := this _ rfl
    have h3 := h1.len
    have h4 := List.length_pos_iff.2 h2
    dsimp only at h3 h4
    exact (hf t (h1.rest he) (by omega)).bind fun _ _ => .ok _

theorem rep_congr {p p' : Str → Out (Option (Str × Str))} {f g : Str → Out (Str × Str)} {s : Str} (hp : p s = p' s)
    (hpp : Post (p s) (OptReads s)) (hf : ∀ t, t.length < s.length → f t = g t) : rep p f s = rep p' g s := by
  unfold rep
  rw [← hp]
  cases ho : p s with
  | abort => rfl
  | ub => rfl
  | ok o =>
    have := hpp o ho
    rw [Out.bind_ok, Out.bind_ok]
    cases o with
    | none => rfl
    | some r =>
      obtain ⟨x, t⟩ := r
      obtain ⟨h1, h2⟩ := this _ rfl
      have h3 := h1.len
      have h4 := List.length_pos_iff.2 h2
      dsimp only at h3 h4 ⊢
      rw [hf t (by omega)]

/-! ## The inside of brackets -/

/-- One step of the inner loops. -/
def innerStep (template : Bool) (f g : Str → Out (Str × Str)) (s : Str) : Out (Option (Str × Str)) :=
  orElse (if template then templateArgs s else .ok none) <| orElse (chunk true s) <|
    orElse (bracket '(' ')' f s) (bracket '<' '>' g s)

theorem inner_succ (n : Nat) (b : Bool) (s : Str) :
    inner (n + 1) b s = rep (innerStep b (inner n false) (inner n true)) (inner n b) s := rfl

theorem templateStep_post (b : Bool) (s : Str) : Post (if b = true then templateArgs s else .ok none) (OptReads s) :=
  Post.ite (fun _ => (templateArgs_yields s).post) fun _ => .ok OptReads.none

theorem templateStep_fine (b : Bool) (s : Str) : Fine (if b = true then templateArgs s else .ok none) :=
  Fine.ite (fun _ => (templateArgs_yields s).fine) fun _ => .ok _

theorem innerStep_post {b : Bool} {f g : Str → Out (Str × Str)} {s : Str} (hf : ∀ t, Post (f t) (Reads t))
    (hg : ∀ t, Post (g t) (Reads t)) : Post (innerStep b f g s) (OptReads s) :=
  orElse_post (templateStep_post b s) <| orElse_post (chunk_post true s) <|
    orElse_post (bracket_post (by decide) (by decide) (by decide) fun t _ => (hf t).mono fun _ h => h.1)
      (bracket_post (by decide) (by decide) (by decide) fun t _ => (hg t).mono fun _ h => h.1)

theorem inner_post : ∀ (n : Nat) (b : Bool) (s : Str), Post (inner n b s) (Reads s)
  | 0, _, _ => Post.ub
  | n + 1, b, s => by
    rw [inner_succ]
    exact rep_post (innerStep_post (inner_post n false) (inner_post n true)) (inner_post n b)

theorem inner_fine : ∀ (n : Nat) (b : Bool) (s : Str), EndsNl s → s.length < n → Fine (inner n b s)
  | 0, _, s, _, h => by omega
  | n + 1, b, s, he, h => by
    rw [inner_succ]
    refine rep_fine ?_ (innerStep_post (inner_post n false) (inner_post n true)) he fun t ht hl => inner_fine n b t ht (by omega)
    refine orElse_fine (templateStep_fine b s) <| orElse_fine (chunk_fine true he) <| orElse_fine ?_ ?_
    all_goals
      refine bracket_fine (by decide) (by decide) fun t ht => ?_
      subst ht
      rw [List.length_cons] at h
      exact inner_fine n _ t (he.tail (by decide)) (by omega)

theorem inner_fuel : ∀ (n m : Nat) (b : Bool) (s : Str), s.length < n → s.length < m → inner n b s = inner m b s
  | 0, _, _, s, h, _ => by omega
  | _ + 1, 0, _, s, _, h => by omega
  | n + 1, m + 1, b, s, hn, hm => by
    rw [inner_succ, inner_succ]
    refine rep_congr ?_ (innerStep_post (inner_post n false) (inner_post n true)) fun t ht => inner_fuel n m b t (by omega) (by omega)
    unfold innerStep
    rw [bracket_congr (l := '(') (by decide) (g := inner m false), bracket_congr (l := '<') (by decide) (g := inner m true)]
    all_goals
      rintro t rfl
      rw [List.length_cons] at hn hm
      exact inner_fuel n m _ t (by omega) (by omega)

/-- The inner loops with as much fuel as they need. -/
def innerF (b : Bool) (s : Str) : Out (Str × Str) := inner (s.length + 1) b s

theorem braces_eq (s : Str) : braces s = bracket '(' ')' (innerF false) s := by
  refine bracket_congr (by decide) ?_
  rintro t rfl
  exact inner_fuel _ _ _ _ (by rw [List.length_cons]; omega) (by omega)

theorem template_eq (s : Str) : template s = bracket '<' '>' (innerF true) s := by
  refine bracket_congr (by decide) ?_
  rintro t rfl
  exact inner_fuel _ _ _ _ (by rw [List.length_cons]; omega) (by omega)

theorem innerF_eq (b : Bool) (s : Str) : innerF b s = rep (innerStep b (innerF false) (innerF true)) (innerF b) s := by
  show inner (s.length + 1) b s = _
  rw [inner_succ]
  refine rep_congr ?_ (innerStep_post (inner_post _ false) (inner_post _ true)) fun t ht => inner_fuel _ _ b t (by omega) (by omega)
  unfold innerStep
  rw [bracket_congr (l := '(') (by decide) (g := innerF false), bracket_congr (l := '<') (by decide) (g := innerF true)]
  all_goals
    rintro t rfl
    exact inner_fuel _ _ _ _ (by simp) (by simp)

theorem innerF_post (b : Bool) (s : Str) : Post (innerF b s) (Reads s) := inner_post _ b s

theorem innerF_fine (b : Bool) {s : Str} (h : EndsNl s) : Fine (innerF b s) := inner_fine _ b s h (by omega)

theorem braces_post (s : Str) : Post (braces s) (OptReads s) := by
  rw [braces_eq]
  exact bracket_post (by decide) (by decide) (by decide) fun t _ => (innerF_post false t).mono fun _ h => h.1

theorem template_post (s : Str) : Post (template s) (OptReads s) := by
  rw [template_eq]
  exact bracket_post (by decide) (by decide) (by decide) fun t _ => (innerF_post true t).mono fun _ h => h.1

theorem braces_fine {s : Str} (h : EndsNl s) : Fine (braces s) := by
  rw [braces_eq]
  refine bracket_fine (by decide) (by decide) ?_
  rintro t rfl
  exact innerF_fine _ (h.tail (by decide))

theorem template_fine {s : Str} (h : EndsNl s) : Fine (template s) := by
  rw [template_eq]
  refine bracket_fine (by decide) (by decide) ?_
  rintro t rfl
  exact innerF_fine _ (h.tail (by decide))

/-! ## The parts of a name -/

/-- One step of the loop over the parts of a name. -/
def namePart (s : Str) : Out (Option (Str × Str)) := orElse (chunk false s) (orElse (braces s) (template s))

theorem nameParts_succ (n : Nat) (s : Str) : nameParts (n + 1) s = rep namePart (nameParts n) s := rfl

theorem namePart_post (s : Str) : Post (namePart s) (OptReads s) :=
  orElse_post (chunk_post _ s) (orElse_post (braces_post s) (template_post s))

theorem namePart_fine {s : Str} (h : EndsNl s) : Fine (namePart s) :=
  orElse_fine (chunk_fine _ h) (orElse_fine (braces_fine h) (template_fine h))

theorem nameParts_post : ∀ (n : Nat) (s : Str), Post (nameParts n s) (Reads s)
  | 0, _ => Post.ub
  | n + 1, s => by
    rw [nameParts_succ]
    exact rep_post (namePart_post s) (nameParts_post n)

theorem nameParts_fine : ∀ (n : Nat) (s : Str), EndsNl s → s.length < n → Fine (nameParts n s)
  | 0, s, _, h => by omega
  | n + 1, s, he, h => by
    rw [nameParts_succ]
    exact rep_fine (namePart_fine he) (namePart_post s) he fun t ht hl => nameParts_fine n t ht (by omega)

theorem nameParts_fuel : ∀ (n m : Nat) (s : Str), s.length < n → s.length < m → nameParts n s = nameParts m s
  | 0, _, s, h, _ => by omega
  | _ + 1, 0, s, _, h => by omega
  | n + 1, m + 1, s, hn, hm => by
    rw [nameParts_succ, nameParts_succ]
    exact rep_congr rfl (namePart_post s) fun t ht => nameParts_fuel n m t (by omega) (by omega)

/-- The parts of a name with as much fuel as needed. -/
def partsF (s : Str) : Out (Str × Str) := nameParts (s.length + 1) s

theorem partsF_eq (s : Str) : partsF s = rep namePart partsF s := by
  show nameParts (s.length + 1) s = _
  rw [nameParts_succ]
  exact rep_congr rfl (namePart_post s) fun t ht => nameParts_fuel _ _ t (by omega) (by omega)

theorem partsF_post (s : Str) : Post (partsF s) (Reads s) := nameParts_post _ s

theorem partsF_fine {s : Str} (h : EndsNl s) : Fine (partsF s) := nameParts_fine _ s h (by omega)

end Satyr.Gdb
