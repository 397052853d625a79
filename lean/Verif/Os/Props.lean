import Verif.Os.Model
/-!
# Properties of operating system detection (C32, C33, C63)
-/
namespace Satyr.Os
open Satyr.CStr

/-! ## Specification -/

/-- What a line of os-release says: nothing if it is a comment, has no `=` or an empty key; otherwise the text before
the first `=` and the unquoted text after it. -/
def entry (line : Str) : Option (Str × Str) :=
  if line.head? = some '#' ∨ '=' ∉ line ∨ line.head? = some '=' then none
  else some (line.takeWhile (fun c => c ≠ '='), unescape ((line.dropWhile (fun c => c ≠ '=')).drop 1))

/-- Quoting of a value: a backslash before every quote and backslash. -/
def quote (v : Str) : Str := v.flatMap fun c => if c = '\\' ∨ c = '\'' ∨ c = '"' then ['\\', c] else [c]

/-! ## C32 -/

theorem skipLine_nl {l : Str} (h : '\n' ∉ l) (rest : Str) : skipLine (l ++ '\n' :: rest) = rest := by
  unfold skipLine
  rw [strchrnulI_append h]
  simp

theorem skipLine_last {l : Str} (h : '\n' ∉ l) : skipLine l = [] := by
  unfold skipLine
  rw [strchrnulI_all h]
  simp

theorem entry_append {key : Str} (h0 : key ≠ []) (hc : key.head? ≠ some '#') (hk : '=' ∉ key) (v : Str) :
    entry (key ++ '=' :: v) = some (key, unescape v) := by
  unfold entry
  have h1 : ¬ ((key ++ '=' :: v).head? = some '#' ∨ '=' ∉ key ++ '=' :: v ∨ (key ++ '=' :: v).head? = some '=') := by
    cases key with
    | nil => exact absurd rfl h0
    | cons x key =>
      simp only [List.mem_cons, not_or] at hk
      have hc : x ≠ '#' := fun e => hc (by rw [e]; rfl)
      simp only [List.cons_append, List.head?_cons, Option.some.injEq, List.mem_cons, List.mem_append, true_or, or_true,
        not_true_eq_false, false_or, not_or]
      exact ⟨hc, fun e => hk.1 e.symm⟩
  rw [if_neg h1, takeWhile_ne_append hk]
  have : (key ++ '=' :: v).dropWhile (fun c => c ≠ '=') = '=' :: v := by
    have := drop_takeWhile (p := fun c => decide (c ≠ '=')) (key ++ '=' :: v)
    rw [takeWhile_ne_append hk] at this
    rw [← this]; simp
  rw [this]
  rfl

theorem strchrnulI_le (c : Char) (s : Str) : strchrnulI c s ≤ s.length := takeWhile_length_le s

theorem strchrnulI_eq_length {c : Char} {s : Str} : strchrnulI c s = s.length ↔ c ∉ s := by
  constructor
  · intro h hm
    obtain ⟨a, b, h1, h2⟩ := first_split hm
    rw [h1, strchrnulI_append h2] at h
    simp at h
  · exact strchrnulI_all

/-- No `=` left: no more calls. -/
theorem osLoop_no_eq : ∀ (fuel : Nat) (s : Str), '=' ∉ s → osLoop fuel s = [] := by
  intro fuel
  induction fuel with
  | zero => intro s _; rfl
  | succ fuel ih =>
    intro s h
    rw [osLoop]
    split
    · rfl
    · split
      · apply ih
        unfold skipLine
        intro hm
        dsimp only at hm
        split at hm
        · exact h (List.mem_of_mem_drop (List.mem_of_mem_drop hm))
        · exact h (List.mem_of_mem_drop hm)
      · simp only [strchrnulI_all h, if_true]

/-- One line, ended by a newline (`tail = some rest`) or by the end of the text. -/
theorem osLoop_line (fuel : Nat) {l : Str} (hl : '\n' ∉ l) (rest : Str) :
    osLoop (fuel + 1) (l ++ '\n' :: rest) = (entry l).toList ++ osLoop fuel rest := by
  rw [osLoop, if_neg (by simp)]
  by_cases h1 : l.head? = some '#'
  · have hp : peek (l ++ '\n' :: rest) = '#' := by
      cases l with
      | nil => simp at h1
      | cons x l => simpa [peek] using h1
    rw [if_pos hp, skipLine_nl hl]
    simp [entry, h1]
  · have hp : peek (l ++ '\n' :: rest) ≠ '#' := by
      cases l with
      | nil => simp [peek]
      | cons x l => simpa [peek] using h1
    rw [if_neg hp]
    simp only
    by_cases h2 : strchrnulI '=' (l ++ '\n' :: rest) = (l ++ '\n' :: rest).length
    · rw [if_pos h2]
      have hn := strchrnulI_eq_length.1 h2
      simp only [List.mem_append, List.mem_cons, not_or] at hn
      rw [osLoop_no_eq _ _ hn.2.2]
      simp [entry, hn.1]
    · rw [if_neg h2]
      by_cases h3 : '=' ∈ l
      · obtain ⟨key, v, rfl, hk⟩ := first_split h3
        have hk1 : strchrnulI '=' (key ++ '=' :: v ++ '\n' :: rest) = key.length := by
          rw [List.append_assoc, List.cons_append, strchrnulI_append hk]
        rw [hk1, strchrnulI_append hl]
        by_cases h4 : key = []
        · subst h4
          simp only [List.length_nil, if_true]
          rw [skipLine_nl hl]
          simp [entry]
        · have hk0 : key.length ≠ 0 := by simpa using h4
          rw [if_neg hk0, if_neg (by simp)]
          rw [entry_append h4 (by cases key with | nil => simp | cons x k => simpa using h1) hk]
          simp only [strndup, List.append_assoc, List.cons_append, List.take_left, Option.toList_some,
            List.nil_append, List.cons.injEq, Prod.mk.injEq, true_and]
          refine ⟨congrArg unescape ?_, ?_⟩
          · rw [← List.drop_drop, List.drop_left, List.drop_succ_cons, List.drop_zero]
            rw [show (key ++ '=' :: v).length - key.length - 1 = v.length by simp]
            exact List.take_left
          · rw [if_neg (by simp)]
            have : key ++ '=' :: (v ++ '\n' :: rest) = (key ++ '=' :: v) ++ '\n' :: rest := by simp
            rw [this, ← List.drop_drop, List.drop_left]
            rfl
      · have hk1 : l.length < strchrnulI '=' (l ++ '\n' :: rest) := by
          have hm : '=' ∈ rest := by
            by_contra hm
            exact h2 (strchrnulI_eq_length.2 (by simp [h3, hm]))
          obtain ⟨a, b, hab, ha⟩ := first_split hm
          rw [hab, show l ++ '\n' :: (a ++ '=' :: b) = (l ++ '\n' :: a) ++ '=' :: b by simp, strchrnulI_append (by simp [h3, ha])]
          simp
        rw [if_neg (by omega), strchrnulI_append hl, if_pos hk1, skipLine_nl hl]
        simp [entry, h3]

/-- The last line, without a newline. -/
theorem osLoop_last (fuel : Nat) {l : Str} (hl : '\n' ∉ l) : osLoop (fuel + 1) l = (entry l).toList := by
  rw [osLoop]
  by_cases h0 : l = []
  · simp [h0, entry]
  · rw [if_neg h0]
    have hnil : osLoop fuel [] = [] := osLoop_no_eq _ _ (by simp)
    by_cases h1 : l.head? = some '#'
    · have hp : peek l = '#' := by
        cases l with
        | nil => simp at h1
        | cons x l => simpa [peek] using h1
      rw [if_pos hp, skipLine_last hl, hnil]
      simp [entry, h1]
    · have hp : peek l ≠ '#' := by
        cases l with
        | nil => simp at h0
        | cons x l => simpa [peek] using h1
      rw [if_neg hp]
      simp only
      by_cases h3 : '=' ∈ l
      · obtain ⟨key, v, rfl, hk⟩ := first_split h3
        rw [strchrnulI_append hk, strchrnulI_all hl, if_neg (by simp)]
        by_cases h4 : key = []
        · subst h4
          simp only [List.length_nil, if_true]
          rw [skipLine_last hl, hnil]
          simp [entry]
        · have hk0 : key.length ≠ 0 := by simpa using h4
          rw [if_neg hk0, if_neg (by simp)]
          rw [entry_append h4 (by cases key with | nil => simp | cons x k => simpa using h1) hk]
          simp only [strndup, List.take_left, Option.toList_some, if_true, hnil]
          refine congrArg (fun x => [(key, unescape x)]) ?_
          rw [← List.drop_drop, List.drop_left, List.drop_succ_cons, List.drop_zero]
          rw [show (key ++ '=' :: v).length - key.length - 1 = v.length by simp]
          exact List.take_length
      · rw [if_pos (strchrnulI_all h3)]
        simp [entry, h3]

theorem osLoop_lines (ls : List Str) (last : Str) (h : ∀ l ∈ ls, '\n' ∉ l) (hl : '\n' ∉ last) :
    ∀ fuel, (ls.flatMap (fun l => l ++ ['\n']) ++ last).length ≤ fuel →
      osLoop fuel (ls.flatMap (fun l => l ++ ['\n']) ++ last) = (ls ++ [last]).filterMap entry := by
  induction ls with
  | nil =>
    intro fuel hf
    simp only [List.flatMap_nil, List.nil_append] at hf ⊢
    cases fuel with
    | zero =>
      have : last = [] := by simpa using hf
      subst this
      simp [osLoop, entry]
    | succ fuel => rw [osLoop_last fuel hl]; simp [List.filterMap_cons]; cases entry last <;> rfl
  | cons l ls ih =>
    intro fuel hf
    have he : (l :: ls).flatMap (fun l => l ++ ['\n']) ++ last = l ++ '\n' :: (ls.flatMap (fun l => l ++ ['\n']) ++ last) := by
      simp
    rw [he] at hf ⊢
    cases fuel with
    | zero => simp at hf
    | succ fuel =>
      rw [osLoop_line fuel (h l (by simp)), ih (fun l' hl' => h l' (by simp [hl'])) fuel
        (by simp only [List.length_append, List.length_cons] at hf ⊢; omega)]
      rw [List.cons_append, List.filterMap_cons]
      cases entry l <;> rfl

/-- C32: the callback is called, in order, exactly once for each line that is not a comment and has a `=` after a
non-empty key, with the text before the first `=` and the unquoted text after it. Any text is such a sequence of lines
(`lines_of`). -/
theorem C32_lines (ls : List Str) (last : Str) (h : ∀ l ∈ ls, '\n' ∉ l) (hl : '\n' ∉ last) :
    parseOsRelease (ls.flatMap (fun l => l ++ ['\n']) ++ last) = (ls ++ [last]).filterMap entry :=
  osLoop_lines ls last h hl _ (Nat.le_refl _)

/-- C32: every text is covered. -/
theorem C32_all_texts (s : Str) : ∃ (ls : List Str) (last : Str), s = ls.flatMap (fun l => l ++ ['\n']) ++ last ∧
    (∀ l ∈ ls, '\n' ∉ l) ∧ '\n' ∉ last ∧ parseOsRelease s = (ls ++ [last]).filterMap entry := by
  obtain ⟨ls, last, h1, h2, h3⟩ := lines_of s
  exact ⟨ls, last, h1, h2, h3, by rw [h1]; exact C32_lines ls last h2 h3⟩

theorem unescape_plain (c : Char) (hc : ¬ (c = '\\' ∨ c = '\'' ∨ c = '"')) (s : Str) : unescape (c :: s) = c :: unescape s := by
  simp only [not_or] at hc
  rw [unescape.eq_def]
  split
  · simp_all
  · next h => exact absurd (List.cons.inj h).1 hc.1
  · next h => cases h; rw [if_neg (by simp [hc.2])]

theorem unescape_append_quote (v s : Str) : unescape (quote v ++ s) = v ++ unescape s := by
  induction v with
  | nil => rfl
  | cons c v ih =>
    unfold quote at ih ⊢
    rw [List.flatMap_cons]
    by_cases hc : c = '\\' ∨ c = '\'' ∨ c = '"'
    · rw [if_pos hc]
      exact congrArg (c :: ·) ih
    · rw [if_neg hc]
      exact (unescape_plain c hc _).trans (congrArg (c :: ·) ih)

theorem unescape_quotes (q : Char) (hq : q = '\'' ∨ q = '"') (s : Str) : unescape (q :: s) = unescape s := by
  rcases hq with rfl | rfl <;> rw [unescape.eq_def] <;> simp

/-- C32: a value written with escaped specials, bare or in quotes of either kind, is read back as it was. -/
theorem C32_value (v : Str) (q : Char) (hq : q = '\'' ∨ q = '"') :
    unescape (quote v) = v ∧ unescape (q :: quote v ++ [q]) = v := by
  refine ⟨?_, ?_⟩
  · have := unescape_append_quote v []
    simpa [unescape] using this
  · rw [List.cons_append, unescape_quotes q hq, unescape_append_quote, unescape_quotes q hq]
    simp [unescape]

example : parseOsRelease c!"# a=b\nID=fedora\n\nx\n=y\nVERSION=\"17 (Beefy \\\"Miracle\\\")\"\nLAST='a'" =
    [(c!"ID", c!"fedora"), (c!"VERSION", c!"17 (Beefy \"Miracle\")"), (c!"LAST", c!"a")] := by decide +kernel

/-! ## C33 -/

/-- The value of a key. -/
def valueOf (key : Str) (ps : List (Str × Str)) : Option Str := (ps.find? fun p => decide (p.1 = key)).map Prod.snd

/-- The operating system described by pairs with distinct keys. -/
def describe (ps : List (Str × Str)) (os : OperatingSystem) : OperatingSystem :=
  { os with
    name := (valueOf c!"ID" ps).or os.name
    version := if (valueOf c!"VERSION" ps).any (fun v => strstrHas v c!"(Rawhide)") then some c!"rawhide"
      else os.version.or (valueOf c!"VERSION_ID" ps)
    cpe := (valueOf c!"CPE_NAME" ps).or os.cpe
    variant := (valueOf c!"VARIANT_ID" ps).or os.variant }

theorem valueOf_none {key : Str} {ps : List (Str × Str)} (h : key ∉ ps.map Prod.fst) : valueOf key ps = none := by
  unfold valueOf
  rw [Option.map_eq_none_iff, List.find?_eq_none]
  intro p hp
  simp only [decide_eq_true_eq]
  rintro rfl
  exact h (List.mem_map_of_mem hp)

theorem valueOf_cons (key : Str) (p : Str × Str) (ps : List (Str × Str)) :
    valueOf key (p :: ps) = if p.1 = key then some p.2 else valueOf key ps := by
  unfold valueOf
  rw [List.find?_cons]
  by_cases h : p.1 = key <;> simp [h]

theorem fold_eq (ps : List (Str × Str)) : ∀ os, (ps.map Prod.fst).Nodup →
    ps.foldl (fun os p => callback os p.1 p.2) os = describe ps os := by
  induction ps with
  | nil => intro os _; cases os; simp [describe, valueOf]
  | cons p ps ih =>
    intro os hd
    rw [List.map_cons, List.nodup_cons] at hd
    rw [List.foldl_cons, ih _ hd.2]
    obtain ⟨k, v⟩ := p
    have hn := valueOf_none hd.1
    unfold describe callback
    simp only [valueOf_cons, strcmp_eq_zero]
    by_cases h1 : k = c!"ID"
    · subst h1; simp [hn]
    · by_cases h2 : k = c!"VERSION_ID"
      · subst h2
        cases hv : os.version <;> simp [hn, hv]
      · by_cases h3 : k = c!"VERSION"
        · subst h3
          by_cases h4 : strstrHas v c!"(Rawhide)" = true <;> simp [hn, h4]
        · by_cases h5 : k = c!"CPE_NAME"
          · subst h5; simp [hn]
          · by_cases h6 : k = c!"VARIANT_ID"
            · subst h6; simp [hn]
            · simp [h1, h2, h3, h5, h6]

theorem valueOf_perm {ps qs : List (Str × Str)} (h : ps.Perm qs) (hd : (ps.map Prod.fst).Nodup) (key : Str) :
    valueOf key ps = valueOf key qs := by
  have key_iff : ∀ {l : List (Str × Str)}, (l.map Prod.fst).Nodup → ∀ v, valueOf key l = some v ↔ (key, v) ∈ l := by
    intro l hl v
    induction l with
    | nil => simp [valueOf]
    | cons p l ih =>
      rw [List.map_cons, List.nodup_cons] at hl
      rw [valueOf_cons]
      by_cases hk : p.1 = key
      · rw [if_pos hk, Option.some.injEq, List.mem_cons]
        constructor
        · rintro rfl; left; rw [← hk]
        · rintro (hm | hm)
          · rw [← hm]
          · exact absurd (List.mem_map_of_mem (f := Prod.fst) hm) (by rw [← hk]; exact hl.1)
      · rw [if_neg hk, ih hl.2, List.mem_cons]
        constructor
        · exact Or.inr
        · rintro (hm | hm)
          · exact absurd (by rw [← hm]) hk
          · exact hm
  have hd' : (qs.map Prod.fst).Nodup := (h.map _).nodup_iff.1 hd
  apply Option.ext
  intro v
  rw [key_iff hd, key_iff hd', h.mem_iff]

/-- C33: for files with distinct keys, the detected operating system does not depend on the order of the lines. -/
theorem C33_order (s t : Str) (os : OperatingSystem) (h : (parseOsRelease s).Perm (parseOsRelease t))
    (hd : ((parseOsRelease s).map Prod.fst).Nodup) : parseEtcOsRelease s os = parseEtcOsRelease t os := by
  have hd' := (h.map Prod.fst).nodup_iff.1 hd
  unfold parseEtcOsRelease
  simp only
  rw [fold_eq _ _ hd, fold_eq _ _ hd']
  have : describe (parseOsRelease s) os = describe (parseOsRelease t) os := by
    unfold describe
    simp only [valueOf_perm h hd]
  rw [this]

/-- C33: in terms of the file: reordering the lines of a file (all ended by newlines) whose keys are distinct does not
change the detected operating system. -/
theorem C33_order_of_lines (ls ms : List Str) (os : OperatingSystem) (h : ls.Perm ms) (hn : ∀ l ∈ ls, '\n' ∉ l)
    (hd : ((ls.filterMap entry).map Prod.fst).Nodup) :
    parseEtcOsRelease (ls.flatMap fun l => l ++ ['\n']) os = parseEtcOsRelease (ms.flatMap fun l => l ++ ['\n']) os := by
  have hp : ∀ ks : List Str, (∀ l ∈ ks, '\n' ∉ l) → parseOsRelease (ks.flatMap fun l => l ++ ['\n']) = ks.filterMap entry := by
    intro ks hk
    have := C32_lines ks [] hk (by simp)
    rw [List.append_nil, List.filterMap_append] at this
    rw [this]
    simp [entry]
  have h1 := hp ls hn
  have h2 := hp ms (fun l hl => hn l (h.mem_iff.2 hl))
  apply C33_order
  · rw [h1, h2]; exact h.filterMap _
  · rw [h1]; exact hd

/-- C33: what is detected: the values of `ID`, `VERSION_ID`, `CPE_NAME` and `VARIANT_ID`; a `VERSION` containing
`(Rawhide)` wins over `VERSION_ID`. The function succeeds exactly if a name and a version are known. -/
theorem C33_values (s : Str) (hd : ((parseOsRelease s).map Prod.fst).Nodup) :
    let r := (parseEtcOsRelease s {}).2
    (∀ v, r.name = some v ↔ (c!"ID", v) ∈ parseOsRelease s) ∧
    (∀ v, r.cpe = some v ↔ (c!"CPE_NAME", v) ∈ parseOsRelease s) ∧
    (∀ v, r.variant = some v ↔ (c!"VARIANT_ID", v) ∈ parseOsRelease s) ∧
    ((∃ v, (c!"VERSION", v) ∈ parseOsRelease s ∧ ∃ a b, v = a ++ c!"(Rawhide)" ++ b) → r.version = some c!"rawhide") ∧
    ((¬ ∃ v, (c!"VERSION", v) ∈ parseOsRelease s ∧ ∃ a b, v = a ++ c!"(Rawhide)" ++ b) →
      ∀ v, r.version = some v ↔ (c!"VERSION_ID", v) ∈ parseOsRelease s) ∧
    ((parseEtcOsRelease s {}).1 = true ↔ r.name ≠ none ∧ r.version ≠ none) := by
  have key_iff : ∀ (key : Str) (v : Str), valueOf key (parseOsRelease s) = some v ↔ (key, v) ∈ parseOsRelease s := by
    intro key v
    generalize hl : parseOsRelease s = l at hd
    clear hl
    induction l with
    | nil => simp [valueOf]
    | cons p l ih =>
      rw [List.map_cons, List.nodup_cons] at hd
      rw [valueOf_cons]
      by_cases hk : p.1 = key
      · rw [if_pos hk, Option.some.injEq, List.mem_cons]
        constructor
        · rintro rfl; left; rw [← hk]
        · rintro (hm | hm)
          · rw [← hm]
          · exact absurd (List.mem_map_of_mem (f := Prod.fst) hm) (by rw [← hk]; exact hd.1)
      · rw [if_neg hk, ih hd.2, List.mem_cons]
        constructor
        · exact Or.inr
        · rintro (hm | hm)
          · exact absurd (by rw [← hm]) hk
          · exact hm
  unfold parseEtcOsRelease
  simp only
  rw [fold_eq _ _ hd]
  have hraw : (valueOf c!"VERSION" (parseOsRelease s)).any (fun v => strstrHas v c!"(Rawhide)") = true ↔
      ∃ v, (c!"VERSION", v) ∈ parseOsRelease s ∧ ∃ a b, v = a ++ c!"(Rawhide)" ++ b := by
    simp only [← key_iff, Option.any_eq_true, strstrHas_iff]
  refine ⟨?_, ?_, ?_, ?_, ?_, ?_⟩
  · intro v; rw [← key_iff]; simp [describe]
  · intro v; rw [← key_iff]; simp [describe]
  · intro v; rw [← key_iff]; simp [describe]
  · intro h
    simp only [describe]
    rw [if_pos (hraw.2 h)]
  · intro h v
    rw [← key_iff]
    simp only [describe]
    rw [if_neg (fun h' => h (hraw.1 h'))]
    simp
  · rw [Bool.and_eq_true, Option.isSome_iff_ne_none, Option.isSome_iff_ne_none]

example : (parseEtcOsRelease c!"VERSION_ID=18\nVERSION=\"18 (Rawhide)\"\nID=fedora\n" {}) =
    (true, { name := some c!"fedora", version := some c!"rawhide" }) := by decide +kernel
example : ((parseOsRelease c!"VERSION_ID=18\nVERSION=\"18 (Rawhide)\"\nID=fedora\n").map Prod.fst).Nodup := by decide +kernel

/-! ## C63 -/

/-- C63: on success the text is `product release rest` split at the first ` release `; the name is `rhel` for Red Hat
Enterprise Linux in any case of letters and otherwise the product in lower case; the version is the run of digits and
dots that starts the rest, or all of the rest if there is none. -/
theorem C63_success (text name version : Str) (h : parseSystemRelease text = some (name, version)) :
    ∃ product rest, text = product ++ c!" release " ++ rest ∧
      (∀ p r, text = p ++ c!" release " ++ r → product.length ≤ p.length) ∧
      (name = if startsWithNoCase text c!"Red Hat Enterprise Linux" then c!"rhel" else product.map toLowerC) ∧
      (version = if rest.takeWhile versionChar = [] then rest else rest.takeWhile versionChar) ∧ name ≠ [] := by
  unfold parseSystemRelease at h
  split at h
  · cases h
  · next i hi =>
    obtain ⟨⟨a, b, h1, h2⟩, h3⟩ := strstrI_some hi
    split at h
    · cases h
    · next hne =>
      simp only [Option.some.injEq, Prod.mk.injEq] at h
      have hd : text.drop (i + c!" release ".length) = b := by
        rw [h1, ← h2, ← List.length_append, List.drop_left]
      have ht : strndup text i = a := by
        unfold strndup; rw [h1, ← h2, List.append_assoc, List.take_left]
      refine ⟨a, b, h1, fun p r hp => by rw [h2]; exact h3 p r hp, ?_, ?_, ?_⟩
      · rw [← h.1, systemName, ht]
      · rw [← h.2, hd, systemVersion]
        simp only [List.length_eq_zero_iff]
      · rw [← h.1]; exact hne

/-- C63: the function fails exactly if there is no ` release ` in the text, or nothing before it. -/
theorem C63_failure (text : Str) : parseSystemRelease text = none ↔
    (¬ ∃ a b, text = a ++ c!" release " ++ b) ∨ ∃ b, text = c!" release " ++ b := by
  unfold parseSystemRelease
  split
  · next h => simp only [true_iff]; exact Or.inl (strstrI_none h)
  · next i hi =>
    obtain ⟨⟨a, b, h1, h2⟩, h3⟩ := strstrI_some hi
    have ht : strndup text i = a := by
      unfold strndup; rw [h1, ← h2, List.append_assoc, List.take_left]
    constructor
    · intro h
      right
      split at h
      · next hn =>
        rw [systemName, ht] at hn
        split at hn
        · cases hn
        · have : a = [] := by simpa using hn
          exact ⟨b, by rw [h1, this]; rfl⟩
      · cases h
    · rintro (h | ⟨b', h⟩)
      · exact absurd ⟨a, b, h1⟩ h
      · have h0 := h3 [] b' (by simpa using h)
        have : a = [] := List.eq_nil_of_length_eq_zero (by simpa [h2] using h0)
        have hs : startsWithNoCase text c!"Red Hat Enterprise Linux" = false := by
          rw [h]; rfl
        rw [if_pos]
        rw [systemName, ht, hs, this]
        simp

example : parseSystemRelease c!"Fedora release 17 (Beefy Miracle)" = some (c!"fedora", c!"17") := by decide +kernel
example : parseSystemRelease c!"Red Hat Enterprise Linux Server release 6.2 (Santiago)" = some (c!"rhel", c!"6.2") := by
  decide +kernel
example : parseSystemRelease c!"Fedora release Rawhide" = some (c!"fedora", c!"Rawhide") := by decide +kernel

end Satyr.Os
