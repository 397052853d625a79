import Verif.Rpm.Names
/-!
# C38: the DSO list is parsed line by line
-/
namespace Satyr.Rpm
open Satyr.CStr

/-! ## Specification -/

/-- The part of a line after its first space. -/
def afterSpace (line : Str) : Str := (line.dropWhile fun c => c ≠ ' ').drop 1

/-- The last word of a line. -/
def lastWord (line : Str) : Str := (line.reverse.takeWhile fun c => c ≠ ' ').reverse

/-- The package described by a line `library nevra ... time`: none if there are fewer than two spaces, if the second
word is not a NEVRA or if the last word does not start with a number below 2^64 - 1. -/
def entry (line : Str) : Option Package :=
  if ' ' ∉ line ∨ ' ' ∉ afterSpace line then none
  else match parseNevra ((afterSpace line).takeWhile fun c => c ≠ ' ') with
    | .ok name epoch version release architecture =>
      let ds := (lastWord line).takeWhile IsDec
      if ds ≠ [] ∧ decValue ds < 2 ^ 64 - 1 then
        some { name := some name, epoch, version := some version, release := some release,
               architecture := some architecture, installTime := decValue ds }
      else none
    | _ => none

/-- No word that follows the first space after the beginning of a line is refused for its epoch. -/
def Safe (text : Str) : Prop :=
  ∀ a s lib t b, text = a ++ s → (a = [] ∨ ∃ a', a = a' ++ ['\n']) → s = lib ++ ' ' :: t ++ ' ' :: b → ' ' ∉ lib → ' ' ∉ t →
    parseNevra t ≠ .failDangling

/-! ## Proof -/

theorem Safe.tail {l text : Str} (h : Safe (l ++ '\n' :: text)) : Safe text := by
  intro a s lib t b h1 h2 h3 h4 h5
  refine h (l ++ '\n' :: a) s lib t b (by rw [h1]; simp) ?_ h3 h4 h5
  right
  rcases h2 with rfl | ⟨a', rfl⟩
  · exact ⟨l, rfl⟩
  · exact ⟨l ++ '\n' :: a', by simp⟩

theorem dsoLoop_nil (fuel : Nat) : dsoLoop fuel [] = .ok [] := by cases fuel <;> rfl

theorem strchrI_append {c : Char} {a : Str} (h : c ∉ a) (b : Str) : strchrI c (a ++ c :: b) = some a.length :=
  strchrI_some.2 ⟨a, b, rfl, h, rfl⟩

theorem toNewline_append {l : Str} (h : '\n' ∉ l) (rest : Str) : toNewline (l ++ '\n' :: rest) = '\n' :: rest := by
  unfold toNewline
  rw [List.dropWhile_append_of_pos (fun c hc => by simp only [ne_eq, decide_eq_true_eq]; rintro rfl; exact h hc)]
  simp

theorem toNewline_none {l : Str} (h : '\n' ∉ l) : toNewline l = [] := by
  unfold toNewline
  rw [List.dropWhile_eq_nil_iff]
  intro c hc
  simp only [ne_eq, decide_eq_true_eq]; rintro rfl; exact h hc

/-- Text before the first space is skipped. -/
theorem dsoLoop_skip (fuel : Nat) {x : Str} (h : ' ' ∉ x) (s : Str) : dsoLoop fuel (x ++ s) = dsoLoop fuel s := by
  cases fuel with
  | zero => rfl
  | succ fuel =>
    by_cases hs : ' ' ∈ s
    · obtain ⟨u, v, rfl, hu⟩ := first_split hs
      have hxu : ' ' ∉ x ++ u := by simp [h, hu]
      have e1 : strchrI ' ' (x ++ (u ++ ' ' :: v)) = some (x ++ u).length := by
        rw [← List.append_assoc]; exact strchrI_append hxu v
      have e2 : (x ++ (u ++ ' ' :: v)).drop ((x ++ u).length + 1) = v := by
        rw [← List.append_assoc]; exact drop_at (x ++ u) v ' '
      have e3 := strchrI_append hu v
      have e4 := drop_at u v ' '
      rw [dsoLoop, dsoLoop, if_neg (by simp), if_neg (by simp), e1, e3]
      simp only [e2, e4]
    · have e1 : strchrI ' ' (x ++ s) = none := strchrI_none.2 (by simp [h, hs])
      have e2 : strchrI ' ' s = none := strchrI_none.2 hs
      rw [dsoLoop, dsoLoop, e1, e2]
      simp

theorem afterSpace_eq {lib : Str} (h : ' ' ∉ lib) (rest : Str) : afterSpace (lib ++ ' ' :: rest) = rest := by
  unfold afterSpace
  rw [List.dropWhile_append_of_pos (fun c hc => by simp only [ne_eq, decide_eq_true_eq]; rintro rfl; exact h hc)]
  simp

theorem lastWord_eq {w : Str} (h : ' ' ∉ w) (a : Str) : lastWord (a ++ ' ' :: w) = w := by
  unfold lastWord
  rw [List.reverse_append, List.reverse_cons, List.append_assoc, List.singleton_append,
    takeWhile_ne_append (by simpa using h), List.reverse_reverse]

/-- One step: the line with the library name skipped. -/
theorem dsoLoop_line (fuel : Nat) {lib l' : Str} (hlib : ' ' ∉ lib) (hnl : '\n' ∉ lib) (hl : '\n' ∉ l') (text : Str)
    (hsafe : Safe (lib ++ ' ' :: l' ++ '\n' :: text)) (r : List Package) (hr : dsoLoop fuel ('\n' :: text) = .ok r) :
    dsoLoop (fuel + 1) (' ' :: (l' ++ '\n' :: text)) = .ok ((entry (lib ++ ' ' :: l')).toList ++ r) := by
  have _ := hnl
  rw [dsoLoop, if_neg (by simp)]
  have e0 : strchrI ' ' (' ' :: (l' ++ '\n' :: text)) = some 0 := by simp [strchrI]
  have e1 : (' ' :: (l' ++ '\n' :: text)).drop (0 + 1) = l' ++ '\n' :: text := rfl
  rw [e0]
  simp only [e1, toNewline_append hl, hr]
  have hmem : ' ' ∈ lib ++ ' ' :: l' := by simp
  by_cases h1 : ' ' ∈ l'
  · obtain ⟨t, rest, rfl, ht⟩ := first_split h1
    have e2 : strchrI ' ' (t ++ ' ' :: rest ++ '\n' :: text) = some t.length := by
      rw [List.append_assoc, List.cons_append]; exact strchrI_append ht _
    have e3 : strndup (t ++ ' ' :: rest ++ '\n' :: text) t.length = t := by
      unfold strndup; rw [List.append_assoc, List.take_left]
    have hent : entry (lib ++ ' ' :: (t ++ ' ' :: rest)) =
        match parseNevra t with
        | .ok name epoch version release architecture =>
          let ds := (lastWord (lib ++ ' ' :: (t ++ ' ' :: rest))).takeWhile IsDec
          if ds ≠ [] ∧ decValue ds < 2 ^ 64 - 1 then
            some { name := some name, epoch, version := some version, release := some release,
                   architecture := some architecture, installTime := decValue ds }
          else none
        | _ => none := by
      unfold entry
      rw [afterSpace_eq hlib, takeWhile_ne_append ht, if_neg]
      rw [not_or, not_not, not_not]
      exact ⟨hmem, h1⟩
    rw [e2]
    simp only [e3]
    have hnd : parseNevra t ≠ .failDangling :=
      hsafe [] _ lib t (rest ++ '\n' :: text) rfl (Or.inl rfl) (by simp) hlib ht
    cases hp : parseNevra t with
    | fail => rw [hent, hp]; simp
    | failDangling => exact absurd hp hnd
    | ok name epoch version release architecture =>
      have hlen : ¬ t.length ≤ 1 := by
        obtain ⟨ev, h1, -⟩ := (C35_nevra t name version release architecture epoch).1 hp
        rw [h1]; simp; omega
      rw [if_neg hlen, hent, hp]
      have e4 : strchrI '\n' (t ++ ' ' :: rest ++ '\n' :: text) = some (t ++ ' ' :: rest).length := strchrI_append hl _
      have e5 : strndup (t ++ ' ' :: rest ++ '\n' :: text) (t ++ ' ' :: rest).length = t ++ ' ' :: rest := by
        unfold strndup; rw [List.take_left]
      rw [e4]
      simp only [e5]
      obtain ⟨u, w, huw, hw⟩ := last_split h1
      have e6 : strrchrI ' ' (t ++ ' ' :: rest) = some u.length := by rw [huw]; exact strrchrI_append hw
      have e7 : (t ++ ' ' :: rest).drop (u.length + 1) = w := by rw [huw]; exact drop_at u w ' '
      have e8 : lastWord (lib ++ ' ' :: (t ++ ' ' :: rest)) = w := by
        rw [huw, show lib ++ ' ' :: (u ++ ' ' :: w) = (lib ++ ' ' :: u) ++ ' ' :: w by simp]
        exact lastWord_eq hw _
      rw [e6]
      simp only [e7, e8, C25_uint64_partial, Out.bind_ok]
      by_cases hd : w.takeWhile IsDec ≠ [] ∧ decValue (w.takeWhile IsDec) < 2 ^ 64 - 1
      · rw [if_pos hd, if_pos hd]
        have hl0 : (w.takeWhile IsDec).length ≠ 0 := by simpa using hd.1
        simp only [hl0, if_false]
        rfl
      · rw [if_neg hd, if_neg hd]
        simp
  · have hent : entry (lib ++ ' ' :: l') = none := by
      unfold entry
      rw [afterSpace_eq hlib, if_pos (Or.inr h1)]
    rw [hent]
    cases e2 : strchrI ' ' (l' ++ '\n' :: text) with
    | none => simp
    | some e =>
      simp only
      by_cases hle : e ≤ 1
      · rw [if_pos hle]; simp
      · rw [if_neg hle]
        obtain ⟨t, b, htb, ht, rfl⟩ := strchrI_some.1 e2
        have e3 : strndup (l' ++ '\n' :: text) t.length = t := by unfold strndup; rw [htb, List.take_left]
        have hnd : parseNevra t ≠ .failDangling :=
          hsafe [] _ lib t b rfl (Or.inl rfl) (by
            show lib ++ ' ' :: l' ++ '\n' :: text = _
            rw [List.append_assoc lib, List.cons_append, htb]; simp) hlib ht
        rw [e3]
        cases hp : parseNevra t with
        | fail => simp
        | failDangling => exact absurd hp hnd
        | ok name epoch version release architecture =>
          have e5 : strndup (l' ++ '\n' :: text) l'.length = l' := by unfold strndup; rw [List.take_left]
          simp only [strchrI_append hl, e5, strrchrI_none.2 h1]
          simp

/-- The text after the last newline gives nothing. -/
theorem dsoLoop_last (fuel : Nat) {l : Str} (hl : '\n' ∉ l) (hsafe : Safe l) : dsoLoop fuel l = .ok [] := by
  cases fuel with
  | zero => rfl
  | succ fuel =>
    rw [dsoLoop]
    by_cases h0 : l = []
    · rw [if_pos h0]
    · rw [if_neg h0]
      by_cases h1 : ' ' ∈ l
      · obtain ⟨lib, l', rfl, hlib⟩ := first_split h1
        have hl' : '\n' ∉ l' := fun hm => hl (by simp [hm])
        simp only [strchrI_append hlib, drop_at, toNewline_none hl', dsoLoop_nil]
        cases e2 : strchrI ' ' l' with
        | none => rfl
        | some e =>
          simp only
          split
          · rfl
          · obtain ⟨t, b, htb, ht, rfl⟩ := strchrI_some.1 e2
            have e3 : strndup l' t.length = t := by unfold strndup; rw [htb, List.take_left]
            have hnd : parseNevra t ≠ .failDangling :=
              hsafe [] _ lib t b rfl (Or.inl rfl) (by rw [htb]; simp) hlib ht
            rw [e3, strchrI_none.2 hl']
            cases hp : parseNevra t with
            | fail => rfl
            | failDangling => exact absurd hp hnd
            | ok name epoch version release architecture => rfl
      · rw [strchrI_none.2 h1]

theorem dsoLoop_lines (ls : List Str) (last : Str) (h : ∀ l ∈ ls, '\n' ∉ l) (hl : '\n' ∉ last) :
    ∀ fuel, (ls.flatMap (fun l => l ++ ['\n']) ++ last).length ≤ fuel → Safe (ls.flatMap (fun l => l ++ ['\n']) ++ last) →
      dsoLoop fuel (ls.flatMap (fun l => l ++ ['\n']) ++ last) = .ok (ls.filterMap entry) := by
  induction ls with
  | nil => intro fuel _ hs; exact dsoLoop_last fuel hl hs
  | cons l ls ih =>
    intro fuel hf hs
    have he : (l :: ls).flatMap (fun l => l ++ ['\n']) ++ last = l ++ '\n' :: (ls.flatMap (fun l => l ++ ['\n']) ++ last) := by
      simp
    rw [he] at hf hs ⊢
    have hln := h l (by simp)
    have hsub : ∀ fuel, (ls.flatMap (fun l => l ++ ['\n']) ++ last).length ≤ fuel →
        dsoLoop fuel ('\n' :: (ls.flatMap (fun l => l ++ ['\n']) ++ last)) = .ok (ls.filterMap entry) := by
      intro fuel hf
      rw [show '\n' :: (ls.flatMap (fun l => l ++ ['\n']) ++ last) = ['\n'] ++ (ls.flatMap (fun l => l ++ ['\n']) ++ last) from rfl,
        dsoLoop_skip fuel (by decide)]
      exact ih (fun x hx => h x (by simp [hx])) fuel hf hs.tail
    rw [List.length_append, List.length_cons] at hf
    by_cases h1 : ' ' ∈ l
    · obtain ⟨lib, l', rfl, hlib⟩ := first_split h1
      have hnl : '\n' ∉ lib := fun hm => hln (by simp [hm])
      have hl' : '\n' ∉ l' := fun hm => hln (by simp [hm])
      rw [List.append_assoc, List.cons_append, dsoLoop_skip fuel hlib]
      cases fuel with
      | zero => simp at hf
      | succ fuel =>
        rw [dsoLoop_line fuel hlib hnl hl' _ hs _ (hsub fuel (by omega)), List.filterMap_cons]
        cases entry (lib ++ ' ' :: l') <;> rfl
    · have hent : entry l = none := by unfold entry; rw [if_pos (Or.inl h1)]
      rw [dsoLoop_skip fuel h1, hsub fuel (by omega), List.filterMap_cons, hent]

/-- C38: for every text that is not refused for a bad epoch, the result is, in order, the packages of the lines that
have one. Text after the last newline is ignored. -/
theorem C38_lines (ls : List Str) (last : Str) (h : ∀ l ∈ ls, '\n' ∉ l) (hl : '\n' ∉ last)
    (hs : Safe (ls.flatMap (fun l => l ++ ['\n']) ++ last)) :
    parseDsoList (ls.flatMap (fun l => l ++ ['\n']) ++ last) = .ok (ls.filterMap entry) :=
  dsoLoop_lines ls last h hl _ (Nat.le_refl _) hs

/-- C38: texts without a colon are safe. -/
theorem C38_no_colon (text : Str) (h : ':' ∉ text) : Safe text := by
  intro a s lib t b h1 _ h3 _ _ hd
  obtain ⟨n, es, v, r, a', ht, -⟩ := (C35_nevra_dangling t).1 hd
  apply h
  rw [h1, h3, ht]
  simp

/-- A well-formed record of the list. -/
structure Record where
  library : Str
  name : Str
  epoch : Option Nat
  version : Str
  release : Str
  architecture : Str
  vendor : Str
  time : Nat

/-- `s` has no space and no newline. -/
def Plain (s : Str) : Prop := ' ' ∉ s ∧ '\n' ∉ s

/-- The parts of the record can be told apart. -/
structure Record.WF (r : Record) : Prop where
  library : Plain r.library
  name : Plain r.name ∧ r.name ≠ []
  version : Plain r.version ∧ r.version ≠ [] ∧ '-' ∉ r.version ∧ ':' ∉ r.version
  release : Plain r.release ∧ r.release ≠ [] ∧ '-' ∉ r.release
  architecture : Plain r.architecture ∧ '-' ∉ r.architecture ∧ '.' ∉ r.architecture
  epoch : ∀ e, r.epoch = some e → e < 2 ^ 32
  vendor : '\n' ∉ r.vendor
  time : r.time < 2 ^ 64 - 1

/-- `library nevra (vendor) time`. -/
def Record.line (r : Record) : Str :=
  r.library ++ ' ' :: printNevra r.name r.epoch r.version r.release r.architecture ++ ' ' :: (c!"(" ++ r.vendor ++ c!") ") ++
    natDec r.time

/-- The package of the record. -/
def Record.package (r : Record) : Package :=
  { name := some r.name, epoch := r.epoch.getD 0, version := some r.version, release := some r.release,
    architecture := some r.architecture, installTime := r.time }

theorem natDec_plain (n : Nat) : Plain (natDec n) := by
  obtain ⟨h1, -, -⟩ := natDec_spec n
  exact ⟨fun hm => by have := h1 _ hm; revert this; decide, fun hm => by have := h1 _ hm; revert this; decide⟩

theorem printNevra_plain {r : Record} (h : r.WF) : Plain (printNevra r.name r.epoch r.version r.release r.architecture) := by
  have h1 := h.name.1
  have h2 := h.version.1
  have h3 := h.release.1
  have h4 := h.architecture.1
  unfold Plain at h1 h2 h3 h4 ⊢
  unfold printNevra
  cases r.epoch with
  | none => simp [h1, h2, h3, h4]
  | some e =>
    have h5 := natDec_plain e
    unfold Plain at h5
    simp [h1, h2, h3, h4, h5]

theorem Record.parse {r : Record} (h : r.WF) : parseNevra (printNevra r.name r.epoch r.version r.release r.architecture) =
    .ok r.name (r.epoch.getD 0) r.version r.release r.architecture :=
  C35_nevra_print _ _ _ _ _ h.epoch h.name.2 h.version.2.1 h.release.2.1 h.version.2.2 h.release.2.2 h.architecture.2

theorem Record.entry {r : Record} (h : r.WF) : entry r.line = some r.package := by
  unfold Rpm.entry Record.line
  have hp := printNevra_plain h
  have ha : afterSpace (r.library ++ ' ' :: printNevra r.name r.epoch r.version r.release r.architecture ++
      ' ' :: (c!"(" ++ r.vendor ++ c!") ") ++ natDec r.time) =
      printNevra r.name r.epoch r.version r.release r.architecture ++ ' ' :: (c!"(" ++ r.vendor ++ c!") " ++ natDec r.time) := by
    rw [List.append_assoc, List.append_assoc, List.cons_append, afterSpace_eq h.library.1]
    simp
  have hw : lastWord (r.library ++ ' ' :: printNevra r.name r.epoch r.version r.release r.architecture ++
      ' ' :: (c!"(" ++ r.vendor ++ c!") ") ++ natDec r.time) = natDec r.time := by
    have := lastWord_eq (natDec_plain r.time).1 (r.library ++ ' ' :: printNevra r.name r.epoch r.version r.release r.architecture ++
      ' ' :: (c!"(" ++ r.vendor ++ c!")"))
    refine Eq.trans (congrArg lastWord ?_) this
    simp
  obtain ⟨h1, h2, h3⟩ := natDec_spec r.time
  have ht : (natDec r.time).takeWhile IsDec = natDec r.time := List.takeWhile_eq_self_iff.2 h1
  rw [ha, takeWhile_ne_append hp.1, hw, Record.parse h, if_neg (by rw [not_or, not_not, not_not]; constructor <;> simp)]
  simp only [ht, h3]
  rw [if_pos ⟨h2, h.time⟩]
  rfl

/-- C38: a list of well-formed records is read back exactly, however long it is. -/
theorem C38_records (rs : List Record) (h : ∀ r ∈ rs, r.WF) :
    parseDsoList (rs.flatMap fun r => r.line ++ ['\n']) = .ok (rs.map Record.package) := by
  have hflat : (rs.flatMap fun r => r.line ++ ['\n']) = (rs.map Record.line).flatMap (fun l => l ++ ['\n']) ++ [] := by
    rw [List.append_nil, List.flatMap_map]
  have hnl : ∀ r ∈ rs, '\n' ∉ r.line := by
    intro r hr
    have hw := h r hr
    have h1 := (printNevra_plain hw).2
    have h2 := (natDec_plain r.time).2
    unfold Record.line
    simp [hw.library.2, hw.vendor, h1, h2]
  rw [hflat, C38_lines _ _ (fun l hl => by obtain ⟨r, hr, rfl⟩ := List.mem_map.1 hl; exact hnl r hr) (by simp)]
  · rw [List.filterMap_map]
    congr 1
    clear hflat hnl
    induction rs with
    | nil => rfl
    | cons r rs ih =>
      rw [List.filterMap_cons]
      have : (entry ∘ Record.line) r = some r.package := Record.entry (h r (by simp))
      rw [this]
      simp only [List.map_cons]
      rw [ih (fun x hx => h x (by simp [hx]))]
  · rw [← hflat]
    clear hflat
    induction rs with
    | nil =>
      intro a s lib t b h1 _ h3 _ _
      have := congrArg List.length h1
      rw [h3] at this
      simp at this
    | cons r rs ih =>
      intro a s lib t b h1 h2 h3 h4 h5
      rw [List.flatMap_cons, List.append_assoc, List.singleton_append] at h1
      have hr := h r (by simp)
      rcases h2 with rfl | ⟨a', rfl⟩
      · -- the first line: the word is the NEVRA
        rw [List.nil_append] at h1
        rw [← h1] at h3
        have hx : r.line ++ '\n' :: (rs.flatMap fun r => r.line ++ ['\n']) = r.library ++ ' ' ::
            (printNevra r.name r.epoch r.version r.release r.architecture ++ ' ' :: (c!"(" ++ r.vendor ++ c!") " ++
              natDec r.time ++ '\n' :: (rs.flatMap fun r => r.line ++ ['\n']))) := by
          unfold Record.line; simp
        rw [hx] at h3
        have h6 : _ = lib ++ ' ' :: (t ++ ' ' :: b) := h3.trans (by simp)
        have l1 := congrArg (strchrI ' ') h6
        rw [strchrI_append hr.library.1, strchrI_append h4, Option.some.injEq] at l1
        obtain ⟨h7, h8⟩ := List.append_inj h6 l1
        rw [List.cons.injEq] at h8
        have h9 := h8.2
        have l2 := congrArg (strchrI ' ') h9
        rw [strchrI_append (printNevra_plain hr).1, strchrI_append h5, Option.some.injEq] at l2
        obtain ⟨h10, -⟩ := List.append_inj h9 l2
        rw [← h10, Record.parse hr]
        exact fun h => by cases h
      · -- a later line
        have hln := hnl r (by simp)
        have hlen : r.line.length ≤ a'.length := by
          by_contra hlt
          have : (r.line ++ '\n' :: (rs.flatMap fun r => r.line ++ ['\n']))[a'.length]? = some '\n' := by
            rw [h1]; simp
          rw [List.getElem?_append_left (by omega)] at this
          exact hln (List.mem_of_getElem? this)
        have hd := congrArg (List.drop (r.line.length + 1)) h1
        rw [drop_at, List.append_assoc] at hd
        rcases Nat.eq_or_lt_of_le hlen with heq | hlt
        · rw [heq, List.singleton_append, drop_at] at hd
          exact ih (fun x hx => h x (by simp [hx])) (fun x hx => hnl x (by simp [hx])) [] s lib t b (by simpa using hd)
            (Or.inl rfl) h3 h4 h5
        · rw [List.drop_append_of_le_length (by omega)] at hd
          exact ih (fun x hx => h x (by simp [hx])) (fun x hx => hnl x (by simp [hx])) (a'.drop (r.line.length + 1) ++ ['\n']) s lib t b
            (by simpa using hd) (Or.inr ⟨_, rfl⟩) h3 h4 h5

/-- C38: a line whose epoch is not a number makes the parser free memory twice. -/
theorem C38_not_safe : parseDsoList c!"/lib/a.so a-x:1-2.i686 (V) 1\n" = .ub := by decide +kernel

/-- Two records. -/
def sampleRecords : List Record :=
  [⟨c!"/lib/a.so", c!"glibc", some 2, c!"2.15", c!"1.fc17", c!"i686", c!"Fedora Project", 1340000000⟩,
   ⟨c!"/lib/b.so", c!"gtk+", none, c!"3", c!"1", c!"noarch", c!"", 5⟩]

instance (s : Str) : Decidable (Plain s) := by unfold Plain; infer_instance

example : ∀ r ∈ sampleRecords, r.WF := by
  intro r hr
  simp only [sampleRecords, List.mem_cons, List.not_mem_nil, or_false] at hr
  rcases hr with rfl | rfl
  · exact ⟨by decide, by decide, by decide, by decide, by decide, by simp, by decide, by decide⟩
  · exact ⟨by decide, by decide, by decide, by decide, by decide, by simp, by decide, by decide⟩
example : (sampleRecords.flatMap fun r => r.line ++ ['\n']) =
    c!"/lib/a.so glibc-2:2.15-1.fc17.i686 (Fedora Project) 1340000000\n/lib/b.so gtk+-3-1.noarch () 5\n" := by decide +kernel
example : (parseDsoList c!"nospace\none space\n/lib/b.so gtk+-3-1.noarch (V) 5\n/lib/c.so bad (V) 5\n") =
    .ok [{ name := some c!"gtk+", version := some c!"3", release := some c!"1", architecture := some c!"noarch",
           installTime := 5 }] := by decide +kernel

end Satyr.Rpm
