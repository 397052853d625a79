import Verif.Heap.JsonLemmas
/-!
# Reading structures from JSON: all members, and the structures
-/
namespace Satyr.Heap
open Satyr.CStr
open Satyr.Json

/-! ## The table -/

/-- The text a step stores. -/
def Step.target : Step → Option Text
  | .text _ t | .either _ _ t => some t
  | _ => none

/-- The kinds of the structures inside a structure come before it. -/
def level : Kind → Nat
  | .coreThread | .javaThread | .koopsTrace | .jsTrace | .pythonTrace | .rubyTrace => 2
  | .coreTrace | .javaTrace => 3
  | _ => 1

def Step.isList : Step → Bool
  | .list _ _ _ => true
  | _ => false

def Step.isModules : Step → Bool
  | .modules => true
  | _ => false

/-- A step that fits the structure. -/
def Step.fits (k : Kind) : Step → Bool
  | .list _ kind marked =>
    (match (slots k)[0]? with
      | some (s, l) => s.isList && l == [kind]
      | none => false) && (slots kind)[1]?.isNone && kind != .report && kind != .coreTrace && kind != .jsTrace && kind != .koopsTrace &&
      decide (level kind < level k) && (!marked || k == .coreTrace)
  | .modules => k == .koopsTrace
  | .platform => k == .jsTrace
  | _ => true

/-- No member is stored twice, which would lose the memory of the first one, and all steps fit. -/
def fine (k : Kind) : List Step → Bool
  | [] => true
  | t :: l =>
    (match t.target with
      | none => true
      | some s => (texts k).contains s && l.all fun t' => t'.target != some s) &&
    (!t.isList || l.all fun t' => !t'.isList) && (!t.isModules || l.all fun t' => !t'.isModules) && t.fits k && fine k l

theorem steps_fine (k : Kind) : fine k (steps k) = true := by cases k <;> decide

/-! ## Lemmas: the steps -/

/-- What the caller has to see to. -/
structure Careful (k : Kind) (j : Value) (err : Option Ptr) : Prop where
  platform : k = .jsTrace → err = some 0
  modules : k = .koopsTrace → ∃ o, Koops.modulesFromJson j = .ok o

/-- A member is still NULL. -/
structure Empty (k : Kind) (x : Part) (t : Step) : Prop where
  text : ∀ s, t.target = some s → x.texts[(texts k).idxOf s]? = some none
  list : t.isList = true → x.a = .nil
  modules : t.isModules = true → x.b = .nil

theorem itemsOf_same {item : Value → Except Str Chain} {marked : Bool} : ∀ {l : List Value} {x y : Part}, itemsOf item marked l x = .ok y →
    y.texts = x.texts ∧ y.b = x.b
  | [], x, y, h => by cases h; exact ⟨rfl, rfl⟩
  | v :: l, x, y, h => by
    rw [itemsOf] at h
    split at h
    · cases h
    · split at h
      · cases h
      · obtain ⟨h1, h2⟩ := itemsOf_same h
        exact ⟨h1, h2⟩

/-- A step changes only its own member. -/
theorem stepOf_other {item : Kind → Value → Except Str Part} {k : Kind} {j : Value} {x y : Part} {t t' : Step}
    (h : stepOf item k j x t = .ok y) (he : Empty k x t') (ht : ∀ s, t'.target = some s → s ∈ texts k)
    (h1 : ∀ s, t.target = some s → t'.target ≠ some s) (h2 : t.isList = true → t'.isList = false)
    (h3 : t.isModules = true → t'.isModules = false) : Empty k y t' := by
  have put : ∀ (z : Part) (s : Text) (str : Str), (∀ u, t'.target = some u → s ≠ u) → Empty k z t' → Empty k (z.put k s str) t' := by
    intro z s str hs hz
    refine ⟨fun u hu => ?_, hz.list, hz.modules⟩
    show (z.texts.set _ _)[_]? = _
    rw [List.getElem?_set_ne, hz.text u hu]
    intro e
    exact hs u hu (((List.idxOf_inj (ht u hu)).1 e.symm).symm)
  have add : ∀ (z : Part) (l : List Int), Empty k z t' → Empty k (z.add l) t' := fun z l hz => ⟨hz.text, hz.list, hz.modules⟩
  cases t with
  | data f =>
    simp only [stepOf] at h
    split at h
    · cases h
    · cases h; exact add _ _ he
  | text key s =>
    have hs : ∀ u, t'.target = some u → s ≠ u := fun u hu e => h1 s rfl (e ▸ hu)
    simp only [stepOf] at h
    split at h
    · cases h; exact he
    · cases h; exact put _ _ _ hs he
    · cases h
  | either key special s =>
    have hs : ∀ u, t'.target = some u → s ≠ u := fun u hu e => h1 s rfl (e ▸ hu)
    simp only [stepOf] at h
    split at h
    · cases h; exact put _ _ _ hs (add _ _ he)
    · cases h
    · split at h
      · cases h; exact put _ _ _ hs (add _ _ he)
      · cases h
      · cases h; exact add _ _ he
  | list key kind marked =>
    simp only [stepOf] at h
    split at h
    · cases h; exact he
    · obtain ⟨e1, e2⟩ := itemsOf_same h
      refine ⟨fun s hs => by rw [e1]; exact he.text s hs, fun hl => ?_, fun hm => by rw [e2]; exact he.modules hm⟩
      rw [h2 rfl] at hl; cases hl
    · cases h
  | modules =>
    simp only [stepOf] at h
    split at h
    · cases h; exact he
    · cases h
      refine ⟨he.text, he.list, fun hm => ?_⟩
      rw [h3 rfl] at hm; cases hm
    · cases h
  | platform =>
    simp only [stepOf] at h
    split at h
    · cases h; exact add _ _ he
    · split at h
      · cases h
      · cases h; exact add _ _ he

theorem runStep_spec (A : Allocator) {k : Kind} {j v : Value} (hv : weight v ≤ weight j) {m₀ m : Mem} {p : Ptr} {err : Option Ptr} {x : Part}
    {item : Kind → Value → State → Out (Ptr × State)} {itemP : Kind → Value → Except Str Part} (t : Step)
    (hitem : ∀ kind v m, level kind < level k → kind ≠ .jsTrace → kind ≠ .koopsTrace → kind ≠ .report →
      Reads kind v m err (itemP kind v) (item kind v ⟨m, err⟩))
    (hc : Careful k v err) (hfit : t.fits k = true) (hin : ∀ s, t.target = some s → s ∈ texts k) (he : Empty k x t) (h : Built k j m₀ m p x) :
    Steps k j m₀ err p (fun y => y.texts = x.texts) (stepOf itemP k v x t) (runStep A item (room j) p k v ⟨m, err⟩ t) := by
  have data : ∀ {z : Part} {m : Mem} (l : List Int), Built k j m₀ m p z →
      Steps k j m₀ err p (fun y => y.texts = z.texts) (.ok (z.add l)) ((storeData p l ⟨m, err⟩).bind fun s => .ok (true, s)) := by
    intro z m l hz
    obtain ⟨m', e1, e2⟩ := storeData_spec hz l err
    rw [e1]
    exact .inr ⟨m', rfl, e2⟩
  have text : ∀ {z : Part} {m : Mem} (s : Text) (str : Str), Built k j m₀ m p z → z.texts[(texts k).idxOf s]? = some none →
      Steps k j m₀ err p (fun y => y.texts = z.texts) (.ok (z.put k s str)) ((storeText A p k s str ⟨m, err⟩).bind fun s => .ok (true, s)) := by
    intro z m s str hz hs
    rcases storeText_spec A hz s str err hs with e | ⟨m', e1, e2⟩
    · rw [e]; exact .inl rfl
    · rw [e1]
      exact .inr ⟨m', rfl, e2⟩
  cases t with
  | data f =>
    simp only [stepOf, runStep]
    cases hf : f v with
    | error msg => exact refuse_spec A h msg err
    | ok l => exact data l h
  | text key s =>
    simp only [stepOf, runStep]
    cases hg : Json.get v key with
    | none => exact .inr ⟨m, rfl, h⟩
    | some u =>
      cases u with
      | str str => exact text s str h (he.text s rfl)
      | _ => exact refuse_spec A h _ err
  | either key special s =>
    have both : ∀ (l : List Int) (str : Str), Steps k j m₀ err p (fun y => y.texts = x.texts) (.ok ((x.add l).put k s str))
        ((storeData p l ⟨m, err⟩).bind fun s' => (storeText A p k s str s').bind fun s => .ok (true, s)) := by
      intro l str
      obtain ⟨m', e1, e2⟩ := storeData_spec h l err
      rw [e1]
      exact text s str e2 (he.text s rfl)
    simp only [stepOf, runStep]
    cases hg : Json.get v key with
    | none =>
      dsimp only
      cases hg' : Json.get v special with
      | none => exact data _ h
      | some u =>
        cases u with
        | str str => exact both _ str
        | _ => exact refuse_spec A h _ err
    | some u =>
      cases u with
      | str str => exact both _ str
      | _ => exact refuse_spec A h _ err
  | list key kind marked =>
    simp only [Step.fits, Bool.and_eq_true, bne_iff_ne, ne_eq, decide_eq_true_eq, Bool.or_eq_true, Bool.not_eq_true',
      beq_iff_eq] at hfit
    obtain ⟨⟨⟨⟨⟨⟨⟨hf1, hf2⟩, hf3⟩, hf4⟩, hf5⟩, hf6⟩, hf7⟩, hf8⟩ := hfit
    simp only [stepOf, runStep]
    cases hg : Json.get v key with
    | none => exact .inr ⟨m, rfl, h⟩
    | some u =>
      cases u with
      | arr l =>
        dsimp only
        split at hf1
        · rename_i s l' hslot
          simp only [Bool.and_eq_true, beq_iff_eq] at hf1
          obtain ⟨hs, rfl⟩ := hf1
          refine storeItems_spec A hslot hs (by simpa using hf2) hf3 hf4 (fun hm => ?_) (Nat.le_refl _) l x m
            (fun v _ m => hitem kind v m hf7 hf5 hf6 hf3) h ?_
          · rcases hf8 with h8 | h8
            · rw [h8] at hm; cases hm
            · exact h8
          · rw [he.list rfl]
            have := weight_get hg
            rw [weight] at this
            simp only [Chain.size]
            omega
        · cases hf1
      | _ => exact refuse_spec A h _ err
  | modules =>
    have hk : k = .koopsTrace := by simpa [Step.fits] using hfit
    obtain ⟨o, ho⟩ := hc.modules hk
    simp only [stepOf, runStep, ho, bind_ok]
    cases o with
    | none => exact refuse_spec A h _ err
    | some o =>
      cases o with
      | none => exact .inr ⟨m, rfl, h⟩
      | some l =>
        dsimp only
        rcases storeModules_spec A l m with e | ⟨q, m', g, e, hA, hh⟩
        · rw [e]; exact .inl rfl
        · rw [e]
          simp only [bind_ok]
          obtain ⟨hok, r, fs, fa, fb, fc, fe, h0, h1, h2, h3, h4, ha, hb, hcc, hee, hn, hw, hadds⟩ := h.more hA
          rw [he.modules rfl] at hb
          obtain ⟨_, rfl⟩ := hb
          refine .inr ⟨m'.set p (some (.record { r with b := q })), ?_, ?_⟩
          · simp only [readRecord, h1, bind_ok, writeRecord]
          · refine Built.rebuild (fs := fs) (fa := fa) (fb := g) (fc := fc) (fe := fe) ⟨hok.length, hok.a, ?_, hok.c, hok.e, hok.sizeA,
                ?_, hok.sizeC, hok.sizeE, hok.crash⟩ h0 h2 h3 h4 ha hh hcc hee hn hw ?_
            · subst hk
              exact ⟨moduleChain_typed l, fun h => by cases h⟩
            · show (moduleChain l).size ≤ _
              have := modules_length ho
              rw [moduleChain_size]; omega
            · refine hadds.perm ?_
              have := List.perm_append_comm (l₁ := fc ++ fe) (l₂ := g)
              simpa using (((this.append_left fa).append_left fs).cons p)
  | platform =>
    have hk : k = .jsTrace := by simpa [Step.fits] using hfit
    have herr := hc.platform hk
    simp only [stepOf, runStep]
    cases hg : Json.get v c!"platform" with
    | none => exact data _ h
    | some u =>
      dsimp only
      have hp := readPlatform_spec A u m err
      cases hv : platformOf u with
      | error msg =>
        rw [hv] at hp
        rcases hp with e | ⟨s, e, hs⟩
        · rw [e]; exact .inl rfl
        · rw [e]
          simp only [bind_ok]
          have hs' := hs
          subst herr
          obtain ⟨q, hq1, hq2, rfl⟩ := hs
          dsimp only
          rw [if_pos hq2]
          exact .inr ⟨m, x, _, rfl, h, rfl, hs'⟩
      | ok n =>
        rw [hv] at hp
        rcases hp with e | e
        · rw [e]; exact .inl rfl
        · rw [e]
          simp only [bind_ok]
          subst herr
          dsimp only
          rw [if_neg (by simp)]
          exact data _ h

theorem runSteps_spec (A : Allocator) {k : Kind} {j v : Value} (hv : weight v ≤ weight j) {m₀ : Mem} {p : Ptr} {err : Option Ptr}
    {item : Kind → Value → State → Out (Ptr × State)} {itemP : Kind → Value → Except Str Part}
    (hitem : ∀ kind v m, level kind < level k → kind ≠ .jsTrace → kind ≠ .koopsTrace → kind ≠ .report →
      Reads kind v m err (itemP kind v) (item kind v ⟨m, err⟩))
    (hc : Careful k v err) : ∀ (l : List Step) (x : Part) (m : Mem), fine k l = true → (∀ t ∈ l, Empty k x t) → Built k j m₀ m p x →
      Steps k j m₀ err p (fun _ => True) (stepsOf itemP k v l x) (runSteps A item (room j) p k v l ⟨m, err⟩)
  | [], x, m, _, _, h => .inr ⟨m, rfl, h⟩
  | t :: l, x, m, hf, he, h => by
    rw [fine] at hf
    simp only [Bool.and_eq_true] at hf
    obtain ⟨⟨⟨⟨f1, f2⟩, f3⟩, f4⟩, f5⟩ := hf
    have hin : ∀ s, t.target = some s → s ∈ texts k ∧ ∀ t' ∈ l, t'.target ≠ some s := by
      intro s hs
      rw [hs] at f1
      simpa using f1
    have hall : ∀ (l : List Step), fine k l = true → ∀ t ∈ l, ∀ s, t.target = some s → s ∈ texts k := by
      intro l
      induction l with
      | nil => simp
      | cons u l ih =>
        intro hf t ht s hs
        rw [fine] at hf
        simp only [Bool.and_eq_true] at hf
        rcases List.mem_cons.1 ht with rfl | ht
        · have := hf.1.1.1.1
          rw [hs] at this
          simp only [Bool.and_eq_true, List.contains_iff_mem] at this
          exact this.1
        · exact ih hf.2 t ht s hs
    rw [stepsOf, runSteps]
    have h1 := runStep_spec A hv t hitem hc f4 (fun s hs => (hin s hs).1) (he t (by simp)) h
    cases hs : stepOf itemP k v x t with
    | error msg =>
      rw [hs] at h1
      rcases h1 with e | ⟨m', x', s, e, hb, _, hr⟩
      · rw [e]; exact .inl rfl
      · rw [e]
        exact .inr ⟨m', x', s, rfl, hb, trivial, hr⟩
    | ok y =>
      rw [hs] at h1
      rcases h1 with e | ⟨m', e, hb⟩
      · rw [e]; exact .inl rfl
      · rw [e]
        simp only [bind_ok, if_true]
        refine runSteps_spec A hv hitem hc l y m' f5 (fun t' ht' => ?_) hb
        refine stepOf_other hs (he t' (by simp [ht'])) (hall l f5 t' ht') (fun s hs' => (hin s hs').2 t' ht') (fun hl => ?_) (fun hl => ?_)
        · rw [hl] at f2
          simp only [Bool.not_true, Bool.false_or, List.all_eq_true, Bool.not_eq_true'] at f2
          exact f2 t' ht'
        · rw [hl] at f3
          simp only [Bool.not_true, Bool.false_or, List.all_eq_true, Bool.not_eq_true'] at f3
          exact f3 t' ht'

theorem texts_null (m : Mem) (n : Nat) : Texts m (List.replicate n none) (List.replicate n 0) [] := by
  induction n with
  | zero => exact .nil
  | succ n ih => exact .null ih

/-- Reading a structure. -/
theorem read_spec (A : Allocator) : ∀ (d : Nat) (k : Kind) (j : Value) (m : Mem) (err : Option Ptr), level k ≤ d → k ≠ .report →
    Careful k j err → Reads k j m err (partOfJson d k j) (read A d k j ⟨m, err⟩)
  | 0, k, j, m, err, hd, _, _ => by cases k <;> simp [level] at hd
  | d + 1, k, j, m, err, hd, hr, hc => by
    rw [partOfJson, read]
    cases ho : isObject j with
    | false =>
      rw [if_pos rfl, if_pos rfl]
      rcases setError_spec A (typeError (title k) c!"object") ⟨m, err⟩ with e | ⟨s, e, hs⟩
      · rw [e]; exact .inl rfl
      · rw [e]; exact .inr ⟨s, rfl, hs⟩
    | true =>
      rw [if_neg (by simp), if_neg (by simp)]
      rcases alloc_spec A (.record { kind := k, texts := List.replicate (texts k).length 0 }) m with e | ⟨p, e, hp, hA⟩
      · rw [e]; exact .inl rfl
      · rw [e]
        simp only [bind_ok]
        have hb : Built k j m (m.set p (some (.record { kind := k, texts := List.replicate (texts k).length 0 }))) p
            { texts := List.replicate (texts k).length none } :=
          ⟨⟨by simp, MemberOk.nil _ _, MemberOk.nil _ _, MemberOk.nil _ _, MemberOk.nil _ _, weight_pos j, Nat.zero_le _, Nat.zero_le _, Nat.zero_le _,
            by simp⟩, _, [], [], [], [], [], hp, set_eq _ _ _, rfl, rfl,
            texts_null _ _, ⟨rfl, rfl⟩, ⟨rfl, rfl⟩, ⟨rfl, rfl⟩, ⟨rfl, rfl⟩, rfl, rfl, hA⟩
        have hem : ∀ t ∈ steps k, Empty k { texts := List.replicate (texts k).length none } t := by
          intro t ht
          refine ⟨fun s hs => ?_, fun _ => rfl, fun _ => rfl⟩
          have hmem : s ∈ texts k := by
            have hf := steps_fine k
            revert hf
            generalize steps k = l at ht
            induction l with
            | nil => simp at ht
            | cons u l ih =>
              intro hf
              rw [fine] at hf
              simp only [Bool.and_eq_true] at hf
              rcases List.mem_cons.1 ht with rfl | ht
              · have := hf.1.1.1.1
                rw [hs] at this
                simp only [Bool.and_eq_true, List.contains_iff_mem] at this
                exact this.1
              · exact ih ht hf.2
          simp [List.idxOf_lt_length_iff.2 hmem]
        have h1 := runSteps_spec A (Nat.le_refl _) (item := read A d) (itemP := partOfJson d) (err := err)
          (fun kind v m hl h2 h3 h4 => read_spec A d kind v m err (by omega) h4 ⟨fun h => absurd h h2, fun h => absurd h h3⟩)
          hc (steps k) _ _ (steps_fine k) hem hb
        cases hs : stepsOf (partOfJson d) k j (steps k) { texts := List.replicate (texts k).length none } with
        | error msg =>
          rw [hs] at h1
          rcases h1 with e | ⟨m', x', s, e, hb', _, hrep⟩
          · rw [e]; exact .inl rfl
          · rw [e]
            simp only [bind_ok]
            rw [if_neg (by simp)]
            obtain ⟨m₃, e1, e2⟩ := hb'.free (fun e => absurd e hr) hrep (k == .package) (Nat.le_refl _)
            rw [e1]
            exact .inr ⟨_, rfl, e2⟩
        | ok y =>
          rw [hs] at h1
          rcases h1 with e | ⟨m', e, hb'⟩
          · rw [e]; exact .inl rfl
          · rw [e]
            exact .inr ⟨p, m', rfl, hb'⟩

end Satyr.Heap
