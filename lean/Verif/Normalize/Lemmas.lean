import Verif.Normalize.Spec
import Verif.Threads.Props
import Verif.CStr.Props
import Mathlib.Data.List.Infix
/-!
# What each normalization step does
-/
namespace Satyr.Normalize
open Satyr.CStr Satyr.Threads

section Lists
variable {A : Type} (p : A → Bool)

theorem afterLast_split {pre post : List A} {e : A} (he : p e = true) (hp : ∀ x ∈ post, p x = false) :
    afterLast p (pre ++ e :: post) = post := by
  unfold afterLast
  rw [List.reverse_append, List.reverse_cons, List.append_assoc,
    List.takeWhile_append_of_pos (by intro x hx; simp [hp x (List.mem_reverse.1 hx)])]
  simp [he]

theorem afterLast_none {l : List A} (h : ∀ x ∈ l, p x = false) : afterLast p l = l := by
  unfold afterLast
  rw [List.takeWhile_eq_self_iff.2 (by intro x hx; simp [h x (List.mem_reverse.1 hx)]), List.reverse_reverse]

theorem last_cases (l : List A) : (∀ x ∈ l, p x = false) ∨
    ∃ pre e post, l = pre ++ e :: post ∧ p e = true ∧ ∀ x ∈ post, p x = false := by
  induction l with
  | nil => left; simp
  | cons a l ih =>
    rcases ih with h | ⟨pre, e, post, h1, h2, h3⟩
    · cases ha : p a with
      | false => left; intro x hx; rcases List.mem_cons.1 hx with rfl | hx; exact ha; exact h x hx
      | true => right; exact ⟨[], a, l, rfl, ha, h⟩
    · right; exact ⟨a :: pre, e, post, by rw [h1]; rfl, h2, h3⟩

theorem afterLast_cons (x : A) (l : List A) :
    afterLast p (x :: l) = if l.any p then afterLast p l else if p x then l else x :: l := by
  rcases last_cases p l with h | ⟨pre, e, post, h1, h2, h3⟩
  · have : l.any p = false := by rw [List.any_eq_false]; intro y hy; simp [h y hy]
    rw [this, if_neg (by simp)]
    split
    · next hx => exact afterLast_split p (pre := []) hx h
    · next hx =>
      apply afterLast_none
      intro y hy
      rcases List.mem_cons.1 hy with rfl | hy
      · simpa using hx
      · exact h y hy
  · subst h1
    rw [if_pos (by simp [h2]), ← List.cons_append, afterLast_split p h2 h3, afterLast_split p h2 h3]

theorem afterLast_suffix (l : List A) : afterLast p l <:+ l := by
  rcases last_cases p l with h | ⟨pre, e, post, h1, h2, h3⟩
  · rw [afterLast_none p h]
  · rw [h1, afterLast_split p h2 h3]; exact ⟨pre ++ [e], by simp⟩

theorem afterLast_mem {l : List A} {x : A} (h : x ∈ afterLast p l) : p x = false := by
  rcases last_cases p l with h' | ⟨pre, e, post, h1, h2, h3⟩
  · rw [afterLast_none p h'] at h; exact h' x h
  · rw [h1, afterLast_split p h2 h3] at h; exact h3 x h

theorem afterLast_map {B : Type} (q : B → Bool) (f : A → B) (l : List A) :
    afterLast q (l.map f) = (afterLast (fun a => q (f a)) l).map f := by
  unfold afterLast
  rw [← List.map_reverse, List.takeWhile_map, List.map_reverse]
  rfl

theorem dropFirstIf_suffix (l : List A) : dropFirstIf p l <:+ l := by
  cases l with
  | nil => exact List.suffix_rfl
  | cons a l =>
    rw [dropFirstIf]
    split
    · exact List.suffix_cons a l
    · exact List.suffix_rfl

theorem dropLastIf_prefix (l : List A) : dropLastIf p l <+: l := by
  unfold dropLastIf
  rw [← List.reverse_suffix, List.reverse_reverse]
  exact dropFirstIf_suffix p _

theorem dropLastIf_snoc (l : List A) (x : A) : dropLastIf p (l ++ [x]) = if p x then l else l ++ [x] := by
  unfold dropLastIf
  rw [List.reverse_append, List.reverse_singleton, List.singleton_append, dropFirstIf]
  split <;> simp

theorem dropLastIf_nil : dropLastIf p [] = [] := rfl

end Lists

variable {F : Type}

theorem removeFrame_head (n : Node F) (t : List (Node F)) : removeFrame n.id (n :: t) = (true, t) := by
  simp [removeFrame]

theorem findExit_none (isExit : F → Bool) : ∀ (t : List (Node F)) (r : Option (Node F)), (∀ n ∈ t, isExit n.val = false) →
    findExit isExit t r = r
  | [], r, _ => rfl
  | n :: t, r, h => by
    rw [findExit, h n (by simp), if_neg (by simp), findExit_none isExit t r (fun m hm => h m (by simp [hm]))]

theorem findExit_append (isExit : F → Bool) : ∀ (a b : List (Node F)) (r : Option (Node F)),
    findExit isExit (a ++ b) r = findExit isExit b (findExit isExit a r)
  | [], b, r => rfl
  | n :: a, b, r => by rw [List.cons_append, findExit, findExit, findExit_append isExit a b]

theorem removeExit_eq (isExit : F → Bool) (t : List (Node F)) (h : WF t) :
    removeExit isExit t = .ok (afterLast (fun n => isExit n.val) t) := by
  unfold removeExit
  rcases last_cases (fun n : Node F => isExit n.val) t with h' | ⟨pre, e, post, h1, h2, h3⟩
  · rw [findExit_none isExit t none h', afterLast_none _ h']
  · have : findExit isExit t none = some e := by
      rw [h1, findExit_append, findExit, if_pos h2, findExit_none isExit post _ h3]
    rw [this]
    subst h1
    simp only [removeFramesAbove_append h, Out.bind_ok]
    rw [if_neg (by simp), removeFrame_head]
    rw [afterLast_split (fun n : Node F => isExit n.val) h2 h3]
    simp

theorem removeRedundant_eq (removable withAbove : F → Bool) : ∀ (rest kept : List (Node F)), WF (kept ++ rest) →
    removeRedundant removable withAbove rest (kept ++ rest) =
      .ok (if rest.any (fun n => withAbove n.val)
        then (afterLast (fun n => withAbove n.val) rest).filter (fun n => !removable n.val)
        else kept ++ rest.filter (fun n => !removable n.val))
  | [], kept, _ => by simp [removeRedundant]
  | n :: rest, kept, h => by
    have hpost := h.pre_ne
    unfold removeRedundant
    by_cases hw : withAbove n.val = true
    · rw [if_pos hw]
      simp only [removeFramesAbove_append h, Out.bind_ok]
      rw [if_neg (by simp), removeFrame_head]
      have hwf : WF ([] ++ rest) := h.sublist (by
        rw [List.nil_append]
        exact (List.sublist_cons_self n rest).trans (List.sublist_append_right kept _))
      have ih := removeRedundant_eq removable withAbove rest [] hwf
      simp only [List.nil_append] at ih ⊢
      rw [ih, afterLast_cons]
      simp only [List.any_cons, hw, Bool.true_or, if_true]
      split <;> rfl
    · have hw' : withAbove n.val = false := by simpa using hw
      rw [if_neg hw]
      by_cases hr : removable n.val = true
      · rw [if_pos hr, removeFrame_append n.id kept n rest rfl hpost.1]
        simp only
        have hwf : WF (kept ++ rest) := h.sublist
          (List.Sublist.append (List.Sublist.refl kept) (List.sublist_cons_self n rest))
        rw [removeRedundant_eq removable withAbove rest kept hwf, afterLast_cons]
        simp only [List.any_cons, hw', Bool.false_or]
        split
        · rfl
        · simp [hr]
      · rw [if_neg hr]
        have e : kept ++ n :: rest = (kept ++ [n]) ++ rest := by simp
        rw [e] at h ⊢
        rw [removeRedundant_eq removable withAbove rest (kept ++ [n]) h, afterLast_cons]
        simp only [List.any_cons, hw', Bool.false_or]
        split
        · rfl
        · simp [hr]

theorem removeRedundant_self (removable withAbove : F → Bool) (t : List (Node F)) (h : WF t) :
    removeRedundant removable withAbove t t =
      .ok ((afterLast (fun n => withAbove n.val) t).filter (fun n => !removable n.val)) := by
  have := removeRedundant_eq removable withAbove t [] h
  rw [List.nil_append] at this
  rw [this]
  by_cases ha : t.any (fun n => withAbove n.val) = true
  · rw [if_pos ha]
  · rw [if_neg ha, afterLast_none _ (by
      intro n hn
      rw [Bool.not_eq_true, List.any_eq_false] at ha
      simpa using ha n hn)]
    simp

theorem removeFirstNull_eq (isNull : F → Bool) (t : List (Node F)) :
    removeFirstNull isNull t = dropFirstIf (fun n => isNull n.val) t := by
  cases t with
  | nil => rfl
  | cons n t =>
    unfold removeFirstNull
    simp only [removeFrame_head, dropFirstIf]

theorem removeLastNull_eq (isNull : F → Bool) (t : List (Node F)) (h : WF t) :
    removeLastNull isNull t = dropLastIf (fun n => isNull n.val) t := by
  rcases List.eq_nil_or_concat t with rfl | ⟨l, x, rfl⟩
  · rfl
  · unfold removeLastNull
    rw [List.concat_eq_append, dropLastIf_snoc]
    rw [List.concat_eq_append] at h
    simp only [List.getLast?_append, List.getLast?_singleton, Option.some_or]
    rw [removeFrame_append x.id l x [] rfl h.pre_ne.1, List.append_nil]

theorem mergeFrom_eq (same : F → F → Bool) : ∀ (t : List (Node F)) (prev : Node F),
    mergeFrom same prev t = List.destutter' (fun a b => same a.val b.val = false) prev t
  | [], prev => rfl
  | n :: t, prev => by
    unfold mergeFrom
    rw [List.destutter'_cons]
    cases hs : same prev.val n.val
    · simp [mergeFrom_eq same t n]
    · simp [mergeFrom_eq same t prev]

theorem mergeRecursive_eq (same : F → F → Bool) (t : List (Node F)) :
    mergeRecursive same t = List.destutter (fun a b => same a.val b.val = false) t := by
  cases t with
  | nil => rfl
  | cons n t => exact mergeFrom_eq same t n

theorem mapFrames_wf (f : F → F) {t : List (Node F)} (h : WF t) : WF (mapFrames f t) := by
  unfold WF mapFrames at *
  rw [List.map_map]
  exact h

/-! ### Names -/

theorem fileMatch_eq (file : Option Str) (es : List Str) :
    fileMatch file es = es.any fun e => match file with | none => false | some f => strstrHas f e := by
  induction es with
  | nil => rfl
  | cons e es ih =>
    unfold fileMatch
    cases file with
    | none => simpa using ih
    | some f =>
      simp only [List.any_cons] at ih ⊢
      by_cases h : strstrHas f e = true
      · simp [h]
      · simp [h, ih]

theorem callMatch_name {name file : Option Str} {e : Str} {fs : List Str} (h : callMatch name file e fs = true) :
    name = some e := by
  unfold callMatch at h
  cases name with
  | none => simp at h
  | some n =>
    simp only at h
    split at h
    · simp at h
    · next hn => rw [not_not, strcmp_eq_zero] at hn; rw [hn]

theorem startsWith_iff (n p : Str) : startsWith n p = true ↔ p <+: n := List.isPrefixOf_iff_prefix

theorem removeFuncPrefix_some (n : Str) (pre : Str) (num : Nat) (hnum : num ≤ pre.length) :
    removeFuncPrefix (some n) pre num = some (if pre <+: n then n.drop num else n) := by
  unfold removeFuncPrefix
  by_cases h : pre <+: n
  · have : startsWith n pre = true := (startsWith_iff _ _).2 h
    have hl := h.length_le
    simp only [this, h, if_true]
    rw [if_neg (by simp), if_neg (by omega)]
  · have : startsWith n pre = false := by
      rw [Bool.eq_false_iff]; exact fun hh => h ((startsWith_iff _ _).1 hh)
    simp only [this, h, if_true, if_false]

theorem not_prefix_of_head {a b : Char} {s t : Str} (h : a ≠ b) : ¬ (a :: s) <+: (b :: t) := by
  rw [List.cons_prefix_cons]; exact fun hh => h hh.1

theorem stripPrefixes_eq (name : Option Str) : stripPrefixes name = name.map stripSpec := by
  cases name with
  | none => rfl
  | some n =>
    unfold stripPrefixes
    simp only [Option.map_some]
    rw [removeFuncPrefix_some n c!"IA__gdk" 4 (by decide)]
    rw [removeFuncPrefix_some _ c!"IA__g_" 4 (by decide)]
    rw [removeFuncPrefix_some _ c!"IA__gtk" 4 (by decide)]
    rw [removeFuncPrefix_some _ c!"__GI_" 5 (by decide)]
    congr 1
    unfold stripSpec
    by_cases h1 : c!"IA__gdk" <+: n
    · obtain ⟨r, rfl⟩ := h1
      have e : (c!"IA__gdk" ++ r).drop 4 = 'g' :: 'd' :: 'k' :: r := rfl
      have p1 : c!"IA__gdk" <+: c!"IA__gdk" ++ r := List.prefix_append _ _
      have n1 : ¬ c!"IA__g_" <+: 'g' :: 'd' :: 'k' :: r := not_prefix_of_head (by decide)
      have n2 : ¬ c!"IA__gtk" <+: 'g' :: 'd' :: 'k' :: r := not_prefix_of_head (by decide)
      have n3 : ¬ c!"__GI_" <+: 'g' :: 'd' :: 'k' :: r := not_prefix_of_head (by decide)
      simp only [p1, if_true, true_or, e, n1, n2, n3, if_false]
    · simp only [h1, if_false, false_or]
      by_cases h2 : c!"IA__g_" <+: n
      · obtain ⟨r, rfl⟩ := h2
        have e : (c!"IA__g_" ++ r).drop 4 = 'g' :: '_' :: r := rfl
        have p1 : c!"IA__g_" <+: c!"IA__g_" ++ r := List.prefix_append _ _
        have n2 : ¬ c!"IA__gtk" <+: 'g' :: '_' :: r := not_prefix_of_head (by decide)
        have n3 : ¬ c!"__GI_" <+: 'g' :: '_' :: r := not_prefix_of_head (by decide)
        simp only [p1, if_true, true_or, e, n2, n3, if_false]
      · simp only [h2, if_false, false_or]
        by_cases h3 : c!"IA__gtk" <+: n
        · obtain ⟨r, rfl⟩ := h3
          have e : (c!"IA__gtk" ++ r).drop 4 = 'g' :: 't' :: 'k' :: r := rfl
          have p1 : c!"IA__gtk" <+: c!"IA__gtk" ++ r := List.prefix_append _ _
          have n3 : ¬ c!"__GI_" <+: 'g' :: 't' :: 'k' :: r := not_prefix_of_head (by decide)
          simp only [p1, if_true, e, n3, if_false]
        · simp only [h3, if_false]

theorem strstrHas_infix (h n : Str) : strstrHas h n = true ↔ n <:+: h := by
  rw [strstrHas_iff]
  constructor
  · rintro ⟨a, b, h⟩; exact ⟨a, b, h.symm⟩
  · rintro ⟨a, b, h⟩; exact ⟨a, b, h.symm⟩

theorem fileMatch_iff (file : Option Str) (es : List Str) :
    fileMatch file es = true ↔ ∃ f, file = some f ∧ ∃ pat ∈ es, pat <:+: f := by
  rw [fileMatch_eq, List.any_eq_true]
  cases file with
  | none => simp
  | some f => simp [strstrHas_infix]

theorem callMatch_iff (name file : Option Str) (e : Str) (fs : List Str) :
    callMatch name file e fs = true ↔ name = some e ∧ ∃ f, file = some f ∧ ∃ pat ∈ fs, pat <:+: f := by
  rw [← fileMatch_iff]
  unfold callMatch
  cases name with
  | none => simp
  | some n =>
    simp only [Option.some.injEq]
    by_cases h : n = e
    · simp [h]
    · simp [h, strcmp_eq_zero]

theorem any_callMatch_iff (table : List (Str × List Str)) (name file : Option Str) :
    (table.any fun e => callMatch name file e.1 e.2) = true ↔ Listed table name file := by
  rw [List.any_eq_true]
  unfold Listed
  simp only [callMatch_iff]

theorem any_coreCalls_iff (table : List (Str × List Str)) (f : CoreFrame) :
    (table.any fun e => coreCallsFunc f e.1 e.2) = true ↔ ListedAny table f.functionName f.fileName := by
  rw [List.any_eq_true]
  unfold ListedAny
  have : ∀ e : Str × List Str, coreCallsFunc f e.1 e.2 = true ↔ f.functionName = some e.1 ∧
      (e.2 = [] ∨ ∃ g, f.fileName = some g ∧ ∃ pat ∈ e.2, pat <:+: g) := by
    intro e
    rw [← fileMatch_iff]
    unfold coreCallsFunc
    cases f.functionName with
    | none => simp
    | some n =>
      simp only [Option.some.injEq]
      by_cases h : n = e.1
      · simp [h, or_comm]
      · simp [h, strcmp_eq_zero]
  simp only [this]

theorem anyFile_iff (file : Str) (es : List Str) : anyFile file es = true ↔ ∃ pat ∈ es, pat <:+: file := by
  induction es with
  | nil => simp [anyFile]
  | cons e es ih =>
    unfold anyFile
    by_cases h : strstrHas file e = true
    · simp [h, (strstrHas_infix _ _).1 h]
    · have h' : ¬ e <:+: file := fun hh => h ((strstrHas_infix _ _).2 hh)
      simp only [h, List.mem_cons, exists_eq_or_imp, h', false_or]
      exact ih

theorem removableTable_nodup : (removableTable.map fun e => e.1).Nodup := by decide +kernel

theorem find?_of_nodup {A B : Type} [DecidableEq B] (k : A → B) : ∀ {l : List A}, (l.map k).Nodup → ∀ {e : A}, e ∈ l →
    l.find? (fun x => decide (k x = k e)) = some e
  | [], _, e, h => by simp at h
  | a :: l, hn, e, h => by
    rw [List.map_cons, List.nodup_cons] at hn
    rw [List.find?_cons]
    rcases List.mem_cons.1 h with rfl | h
    · simp
    · have : k a ≠ k e := fun hh => hn.1 (hh ▸ List.mem_map_of_mem h)
      simp only [this, decide_false]
      exact find?_of_nodup k hn.2 h

theorem isRemovable_iff (name file : Option Str) : isRemovable name file = true ↔ Listed removableTable name file := by
  unfold isRemovable Listed
  cases name with
  | none => simp
  | some n =>
    cases file with
    | none => simp
    | some f =>
      simp only [Option.some.injEq, exists_eq_left']
      constructor
      · intro h
        cases hf : removableTable.find? fun e => decide (e.1 = n) with
        | none => rw [hf] at h; simp at h
        | some e =>
          rw [hf] at h
          have := List.find?_some hf
          exact ⟨e, List.mem_of_find?_eq_some hf, (of_decide_eq_true this).symm, (anyFile_iff _ _).1 h⟩
      · rintro ⟨e, he, rfl, hp⟩
        rw [find?_of_nodup (fun e : Str × List Str => e.1) removableTable_nodup he]
        exact (anyFile_iff _ _).2 hp

theorem findNewName_spec (old file : Str) : ∃ r, r = (findNewName (some (stripSpec old)) (some file)).getD (stripSpec old) ∧
    NewName old file r := by
  refine ⟨_, rfl, ?_⟩
  have key : ∀ f : Str, (archSuffixes.any fun s =>
      callMatch (some (stripSpec old)) (some file) (c!"__" ++ f ++ s.1) [f, s.2, c!"libc.so"]) = true ↔ ArchVariant old file f := by
    intro f
    rw [List.any_eq_true]
    unfold ArchVariant
    simp only [callMatch_iff, Option.some.injEq, exists_eq_left']
  unfold findNewName NewName
  cases hf : archFunctions.find? fun f => archSuffixes.any fun s =>
      callMatch (some (stripSpec old)) (some file) (c!"__" ++ f ++ s.1) [f, s.2, c!"libc.so"] with
  | some f => exact Or.inl ⟨f, List.mem_of_find?_eq_some hf, (key f).1 (by have := List.find?_some hf; exact this), rfl⟩
  | none =>
    refine Or.inr ⟨?_, rfl⟩
    intro f hm hv
    rw [List.find?_eq_none] at hf
    exact hf f hm ((key f).2 hv)

theorem findNewName_no_file (name : Option Str) : findNewName name none = none := by
  unfold findNewName
  rw [List.find?_eq_none]
  intro f _
  rw [List.any_eq_true]
  rintro ⟨s, _, hm⟩
  rw [callMatch_iff] at hm
  obtain ⟨_, g, hg, _⟩ := hm
  cases hg

theorem findNewName_no_name (file : Option Str) : findNewName none file = none := by
  unfold findNewName
  rw [List.find?_eq_none]
  intro f _
  rw [List.any_eq_true]
  rintro ⟨s, _, hm⟩
  rw [callMatch_iff] at hm
  cases hm.1

theorem findNewName_some {name file : Option Str} {new : Str} (h : findNewName name file = some new) :
    ∃ f ∈ archFunctions, new = f := by
  unfold findNewName at h
  exact ⟨new, List.mem_of_find?_eq_some h, rfl⟩

/-- A file name in which every pattern found also occurs in `file` gives no new match. -/
theorem findNewName_none_mono {name file file' : Option Str} (h : findNewName name file = none)
    (hm : ∀ f ∈ archFunctions, ∀ s ∈ archSuffixes, fileMatch file' [f, s.2, c!"libc.so"] = true →
      fileMatch file [f, s.2, c!"libc.so"] = true) : findNewName name file' = none := by
  unfold findNewName at *
  rw [List.find?_eq_none] at *
  intro f hf
  have := h f hf
  rw [List.any_eq_true] at *
  rintro ⟨s, hs, hc⟩
  apply this
  refine ⟨s, hs, ?_⟩
  rw [callMatch_iff, ← fileMatch_iff] at *
  exact ⟨hc.1, hm f hf s hs hc.2⟩

/-- The canonical names are not renamed again. -/
theorem findNewName_canonical (f : Str) (hf : f ∈ archFunctions) (file : Option Str) :
    findNewName (some f) file = none := by
  unfold findNewName
  rw [List.find?_eq_none]
  intro g _
  rw [List.any_eq_true]
  rintro ⟨s, _, hc⟩
  rw [callMatch_iff] at hc
  have h1 := hc.1
  rw [Option.some.injEq] at h1
  have h2 : ∀ f ∈ archFunctions, f.head? ≠ some '_' := by decide
  exact h2 f hf (by rw [h1]; rfl)

theorem stripSpec_canonical (f : Str) (hf : f ∈ archFunctions) : stripSpec f = f := by
  have : ∀ f ∈ archFunctions, stripSpec f = f := by unfold stripSpec; decide +kernel
  exact this f hf

theorem stripSpec_stable {n : Str} (h : ¬ DoublePrefix n) : stripSpec (stripSpec n) = stripSpec n := by
  unfold DoublePrefix at h
  simp only [List.mem_cons, List.not_mem_nil, or_false, exists_eq_or_imp, exists_eq_left, not_or] at h
  obtain ⟨d1, d2, d3, d4⟩ := h
  have head : ∀ (c : Char) (r : Str), c = 'g' → stripSpec (c :: r) = c :: r := by
    rintro c r rfl
    have n1 : ¬ c!"IA__gdk" <+: 'g' :: r := not_prefix_of_head (by decide)
    have n2 : ¬ c!"IA__g_" <+: 'g' :: r := not_prefix_of_head (by decide)
    have n3 : ¬ c!"IA__gtk" <+: 'g' :: r := not_prefix_of_head (by decide)
    have n4 : ¬ c!"__GI_" <+: 'g' :: r := not_prefix_of_head (by decide)
    unfold stripSpec
    simp only [n1, n2, n3, n4, or_self, if_false]
  by_cases h1 : c!"IA__gdk" <+: n ∨ c!"IA__g_" <+: n ∨ c!"IA__gtk" <+: n
  · have e : stripSpec n = n.drop 4 := by unfold stripSpec; simp only [h1, if_true]
    rw [e]
    rcases h1 with ⟨r, rfl⟩ | ⟨r, rfl⟩ | ⟨r, rfl⟩
    · exact head 'g' _ rfl
    · exact head 'g' _ rfl
    · exact head 'g' _ rfl
  · by_cases h2 : c!"__GI_" <+: n
    · have e : stripSpec n = n.drop 5 := by unfold stripSpec; simp only [h1, h2, if_true, if_false]
      rw [e]
      obtain ⟨r, rfl⟩ := h2
      have er : (c!"__GI_" ++ r).drop 5 = r := rfl
      rw [List.prefix_append_right_inj] at d1 d2 d3 d4
      rw [er]
      unfold stripSpec
      simp only [d1, d2, d3, d4, or_self, if_false]
    · have e : stripSpec n = n := by unfold stripSpec; simp only [h1, h2, if_false]
      rw [e, e]

/-! ### File names under /home -/

theorem infix_append_cases {pat Z : Str} : ∀ {X : Str}, pat <:+: X ++ Z →
    pat <:+: Z ∨ ∃ s ∈ X.tails, s ≠ [] ∧ pat <+: s ++ Z
  | [], h => Or.inl h
  | x :: X, h => by
    rw [List.cons_append, List.infix_cons_iff] at h
    rcases h with h | h
    · exact Or.inr ⟨x :: X, by simp, by simp, h⟩
    · rcases infix_append_cases h with h | ⟨s, hs, h⟩
      · exact Or.inl h
      · refine Or.inr ⟨s, ?_, h⟩
        exact (List.mem_tails _ _).2 (((List.mem_tails _ _).1 hs).trans (List.suffix_cons x X))

/-- No occurrence of the pattern can begin within the text c!"/home/anonymized" put at the front of a path. -/
def AnonSafe (pat : Str) : Bool :=
  pat.isEmpty || c!"/home/anonymized".tails.all fun s =>
    s.isEmpty || (!pat.isPrefixOf (s ++ ['/']) && !(s ++ ['/']).isPrefixOf pat)

theorem infix_anonymize {pat : Str} (hp : AnonSafe pat = true) (f : Str) (h : pat <:+: anonymizePath f) :
    pat <:+: f := by
  unfold AnonSafe at hp
  rw [Bool.or_eq_true] at hp
  rcases hp with hp | hp
  · rw [List.isEmpty_iff] at hp
    rw [hp]; exact List.nil_infix
  by_cases hf : ∃ user rest, '/' ∉ user ∧ f = c!"/home/" ++ user ++ '/' :: rest
  · obtain ⟨u, r, hu, rfl⟩ := hf
    rw [C31_replaces u r hu] at h
    have e : c!"/home/anonymized/" ++ r = c!"/home/anonymized" ++ '/' :: r := rfl
    rw [e] at h
    rcases infix_append_cases h with h | ⟨s, hs, hne, h⟩
    · exact h.trans (List.suffix_append _ _).isInfix
    · exfalso
      rw [List.all_eq_true] at hp
      have := hp s hs
      have hne' : s.isEmpty = false := by simpa using hne
      rw [hne', Bool.false_or, Bool.and_eq_true, Bool.not_eq_true', Bool.not_eq_true'] at this
      have e2 : s ++ '/' :: r = (s ++ ['/']) ++ r := by simp
      rw [e2] at h
      rcases List.prefix_or_prefix_of_prefix h (List.prefix_append (s ++ ['/']) r) with h | h
      · rw [List.isPrefixOf_iff_prefix.2 h] at this; simp at this
      · rw [List.isPrefixOf_iff_prefix.2 h] at this; simp at this
  · rwa [C31_keeps f hf] at h

theorem fileMatch_anonymize (es : List Str) (hs : ∀ pat ∈ es, AnonSafe pat = true) (file : Option Str)
    (h : fileMatch (file.map anonymizePath) es = true) : fileMatch file es = true := by
  rw [fileMatch_iff] at *
  obtain ⟨f, hf, pat, hp, hi⟩ := h
  rw [Option.map_eq_some_iff] at hf
  obtain ⟨g, rfl, rfl⟩ := hf
  exact ⟨g, rfl, pat, hp, infix_anonymize (hs pat hp) g hi⟩

theorem listed_anonymize (table : List (Str × List Str)) (hs : ∀ e ∈ table, ∀ pat ∈ e.2, AnonSafe pat = true)
    (name file : Option Str) (h : Listed table name (file.map anonymizePath)) : Listed table name file := by
  obtain ⟨e, he, hn, h⟩ := h
  rw [← fileMatch_iff] at h
  exact ⟨e, he, hn, (fileMatch_iff _ _).1 (fileMatch_anonymize e.2 (hs e he) file h)⟩

theorem listedAny_anonymize (table : List (Str × List Str)) (hs : ∀ e ∈ table, ∀ pat ∈ e.2, AnonSafe pat = true)
    (name file : Option Str) (h : ListedAny table name (file.map anonymizePath)) : ListedAny table name file := by
  obtain ⟨e, he, hn, h⟩ := h
  refine ⟨e, he, hn, ?_⟩
  rcases h with h | h
  · exact Or.inl h
  · rw [← fileMatch_iff] at h
    exact Or.inr ((fileMatch_iff _ _).1 (fileMatch_anonymize e.2 (hs e he) file h))

theorem removable_safe : ∀ e ∈ removableTable, ∀ pat ∈ e.2, AnonSafe pat = true := by decide +kernel
theorem withAbove_safe : ∀ e ∈ removableWithAboveTable, ∀ pat ∈ e.2, AnonSafe pat = true := by decide +kernel
theorem coreExit_safe : ∀ e ∈ coreExitTable, ∀ pat ∈ e.2, AnonSafe pat = true := by decide +kernel
theorem arch_safe : ∀ f ∈ archFunctions, ∀ s ∈ archSuffixes, ∀ pat ∈ [f, s.2, c!"libc.so"], AnonSafe pat = true := by
  decide +kernel

end Satyr.Normalize
