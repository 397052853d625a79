import Verif.Cli.Model
import Verif.Normalize.Pipeline
import Verif.Crash.Lemmas
/-! # What `satyr debug normalize` prints -/
namespace Satyr.Cli
open Satyr.CStr Satyr.Frames Satyr.Normalize Satyr.Report Satyr.Hash Satyr.Threads

/-- The lines of a file, each a function, a space, and the rest. -/
def linesText : List (Str × Str) → Str
  | [] => []
  | (f, r) :: l => f ++ ' ' :: r ++ '\n' :: linesText l

/-- The functions that hide all functions above them, wherever they are defined. -/
def Hides (n : Str) : Bool := removableWithAboveTable.any fun e => decide (n = e.1 ∧ [] ∈ e.2)

/-- The functions that are left out, wherever they are defined. -/
def LeftOut (n : Str) : Bool := removableTable.any fun e => decide (n = e.1 ∧ [] ∈ e.2)

/-- The names that are printed: prefixes are removed, what is above functions that hide it is left out, and so are functions that are
always left out, and repetitions of a known function. -/
def shownNames (names : List Str) : List Str :=
  List.destutter (fun a b => ¬ (a = b ∧ a ≠ c!"??")) ((afterLast Hides (names.map stripSpec)).filter fun n => !LeftOut n)

/-- What is printed for the names. -/
def namesText : List Str → Str
  | [] => []
  | n :: l => c!"  " ++ n ++ '\n' :: namesText l

/-- A frame as it is read. -/
structure Plain (f : GdbFrame) : Prop where
  name : ∃ n, f.functionName = some n
  source : f.sourceFile = some []
  type : f.functionType = none
  signal : f.signalHandlerCalled = false
  address : f.address = 18446744073709551615

/-- The name of a frame. -/
def nameOf (f : GdbFrame) : Str := f.functionName.getD []

theorem frames_text (l : List GdbFrame) (h : ∀ f ∈ l, Plain f) : Short.gdbFrames false l = namesText (l.map nameOf) := by
  induction l with
  | nil => rfl
  | cons f l ih =>
    have hf := h f (by simp)
    obtain ⟨n, hn⟩ := hf.name
    unfold Short.gdbFrames Short.gdbFrame
    rw [ih fun g hg => h g (by simp [hg]), hf.type, hf.signal, hn]
    simp [namesText, nameOf, hn]

theorem find_empty (n : Str) : findNewName (some n) (some []) = none := by
  unfold findNewName
  rw [List.find?_eq_none]
  intro f hf h
  rw [List.any_eq_true] at h
  obtain ⟨s, hs, h⟩ := h
  rw [callMatch_iff] at h
  obtain ⟨-, f', e, pat, hp, hi⟩ := h
  cases e
  have : pat = [] := by simpa using hi
  subst this
  have h1 : ∀ f ∈ archFunctions, f ≠ [] := by decide +kernel
  have h2 : ∀ s ∈ archSuffixes, s.2 ≠ [] := by decide +kernel
  rcases List.mem_cons.1 hp with h | hp
  · exact h1 f hf h.symm
  rcases List.mem_cons.1 hp with h | hp
  · exact h2 s hs h.symm
  · simp at hp

theorem rename_plain {f : GdbFrame} (h : Plain f) :
    gdbOps.rename f = { f with functionName := some (stripSpec (nameOf f)) } := by
  obtain ⟨n, hn⟩ := h.name
  show renameGdb (normalizeGdbFrame f) = _
  unfold normalizeGdbFrame
  rw [h.source]
  simp only [Option.isSome_some, if_true, stripPrefixes_eq, hn, Option.map_some]
  unfold renameGdb
  dsimp only
  rw [find_empty]
  simp [nameOf, hn]

theorem plain_rename {f : GdbFrame} (h : Plain f) : Plain (gdbOps.rename f) := by
  rw [rename_plain h]
  exact ⟨⟨_, rfl⟩, h.source, h.type, h.signal, h.address⟩

theorem listed_plain (table : List (Str × List Str)) (n : Str) :
    Listed table (some n) (some []) ↔ (table.any fun e => decide (n = e.1 ∧ [] ∈ e.2)) = true := by
  unfold Listed
  simp only [List.any_eq_true, decide_eq_true_eq]
  constructor
  · rintro ⟨e, he, hn, f, hf, pat, hp, hi⟩
    cases hf
    cases hn
    have : pat = [] := by simpa using hi
    subst this
    exact ⟨e, he, rfl, hp⟩
  · rintro ⟨e, he, rfl, hp⟩
    exact ⟨e, he, rfl, [], rfl, [], hp, List.nil_infix⟩

theorem exit_plain {f : GdbFrame} (h : Plain f) : gdbIsExit f = false := by
  obtain ⟨n, hn⟩ := h.name
  rw [← Bool.not_eq_true]
  unfold gdbIsExit
  rw [any_callMatch_iff, hn, h.source, listed_plain]
  have : ∀ e ∈ gdbExitTable, [] ∉ e.2 := by decide +kernel
  simp only [List.any_eq_true, decide_eq_true_eq, not_exists]
  rintro e ⟨he, -, hp⟩
  exact this e he hp

theorem wa_plain {f : GdbFrame} (h : Plain f) : gdbOps.wa (gdbOps.rename f) = Hides (stripSpec (nameOf f)) := by
  show (isRemovableWithAbove _ _ || gdbIsExit _) = _
  rw [exit_plain (plain_rename h), Bool.or_false, rename_plain h, Bool.eq_iff_iff]
  unfold isRemovableWithAbove
  rw [any_callMatch_iff]
  show Listed _ (some _) f.sourceFile ↔ _
  rw [h.source, listed_plain]
  rfl

theorem rem_plain {f : GdbFrame} (h : Plain f) : gdbOps.rem (gdbOps.rename f) = LeftOut (stripSpec (nameOf f)) := by
  show isRemovable _ _ = _
  rw [rename_plain h, Bool.eq_iff_iff, isRemovable_iff]
  show Listed _ (some _) f.sourceFile ↔ _
  rw [h.source, listed_plain]
  rfl

theorem null_plain {f : GdbFrame} (h : Plain f) : gdbIsNull f = false := by
  unfold gdbIsNull
  rw [h.address]
  rfl

theorem same_plain {f g : GdbFrame} (hf : Plain f) (hg : Plain g) :
    gdbSame f g = false ↔ ¬ (nameOf f = nameOf g ∧ nameOf f ≠ c!"??") := by
  obtain ⟨n, hn⟩ := hf.name
  obtain ⟨m, hm⟩ := hg.name
  unfold gdbSame nameOf
  rw [hn, hm]
  have e : ∀ a b : Str, (strcmp0 (some a) (some b) == 0) = decide (a = b) := by
    intro a b
    rw [Bool.eq_iff_iff]
    simp [strcmp0_eq_zero]
  have e' : ∀ a b : Str, (strcmp0 (some a) (some b) != 0) = !decide (a = b) := by
    intro a b
    rw [← e]
    rfl
  rw [e, e']
  simp only [Option.getD_some]
  by_cases h1 : n = c!"??" <;> by_cases h2 : n = m <;> simp [h1, h2]

theorem dropFirstIf_none {A : Type} (p : A → Bool) (l : List A) (h : ∀ x ∈ l, p x = false) : dropFirstIf p l = l := by
  cases l with
  | nil => rfl
  | cons a l => simp [dropFirstIf, h a (by simp)]

theorem dropLastIf_none {A : Type} (p : A → Bool) (l : List A) (h : ∀ x ∈ l, p x = false) : dropLastIf p l = l := by
  unfold dropLastIf
  rw [dropFirstIf_none p _ (by simpa using h), List.reverse_reverse]

theorem afterLast_none {A : Type} (p : A → Bool) (l : List A) (h : ∀ x ∈ l, p x = false) : afterLast p l = l := by
  unfold afterLast
  rw [List.takeWhile_eq_self_iff.2 (by simpa using h), List.reverse_reverse]

theorem afterLast_congr {A : Type} (p q : A → Bool) (l : List A) (h : ∀ x ∈ l, p x = q x) : afterLast p l = afterLast q l := by
  unfold afterLast
  congr 1
  have : ∀ l : List A, (∀ x ∈ l, p x = q x) → (l.takeWhile fun x => !p x) = l.takeWhile fun x => !q x := by
    intro l
    induction l with
    | nil => intro; rfl
    | cons a l ih =>
      intro h
      rw [List.takeWhile_cons, List.takeWhile_cons, h a (by simp), ih fun x hx => h x (by simp [hx])]
  exact this _ (by simpa using h)

theorem pipeline_plain (t : List (Node GdbFrame)) (h : ∀ n ∈ t, Plain n.val) :
    ((pipeline gdbOps t).map Node.val).map nameOf = shownNames (t.map fun n => nameOf n.val) ∧
    ∀ f ∈ (pipeline gdbOps t).map Node.val, Plain f := by
  have hk : keep gdbOps t = (afterLast (fun n => Hides (stripSpec (nameOf n.val))) t).filter
      fun n => !LeftOut (stripSpec (nameOf n.val)) := by
    unfold keep
    rw [afterLast_none (fun n : Node GdbFrame => gdbOps.exit n.val) t fun n hn => exit_plain (h n hn),
      afterLast_congr _ _ t fun n hn => wa_plain (h n hn)]
    apply List.filter_congr
    intro n hn
    rw [rem_plain (h n ((afterLast_suffix _ _).subset hn))]
  have hp : ∀ n ∈ (keep gdbOps t).map (lift fun f => gdbOps.post (gdbOps.rename f)), Plain n.val := by
    intro n hn
    obtain ⟨k, hkm, rfl⟩ := List.mem_map.1 hn
    rw [hk] at hkm
    exact plain_rename (h k ((afterLast_suffix _ _).subset (List.mem_of_mem_filter hkm)))
  unfold pipeline
  rw [dropFirstIf_none (fun n => gdbOps.null n.val) _ fun n hn => null_plain (hp n hn),
    dropLastIf_none (fun n => gdbOps.null n.val) _ fun n hn => null_plain (hp n hn)]
  constructor
  · have hd : ∀ a ∈ (keep gdbOps t).map (lift fun f => gdbOps.post (gdbOps.rename f)),
        ∀ b ∈ (keep gdbOps t).map (lift fun f => gdbOps.post (gdbOps.rename f)), gdbOps.same a.val b.val = false ↔
        ¬ ((nameOf ∘ Node.val) a = (nameOf ∘ Node.val) b ∧ (nameOf ∘ Node.val) a ≠ c!"??") :=
      fun a ha b hb => same_plain (hp a ha) (hp b hb)
    rw [List.map_map, List.map_destutter (R₂ := fun a b => ¬ (a = b ∧ a ≠ c!"??")) hd]
    unfold shownNames
    congr 1
    rw [hk, List.map_map, List.map_map, ← List.map_map, afterLast_map, List.filter_map, List.map_map]
    apply List.map_congr_left
    intro n hn
    have := h n ((afterLast_suffix _ _).subset (List.mem_of_mem_filter hn))
    show nameOf (gdbOps.rename n.val) = _
    rw [rename_plain this]
    rfl
  · intro f hf
    obtain ⟨n, hn, rfl⟩ := List.mem_map.1 hf
    exact hp n ((List.destutter_sublist _ _).subset hn)

theorem takeWhile_until (c : Char) (a b : Str) (h : c ∉ a) : (a ++ c :: b).takeWhile (· ≠ c) = a ∧ (a ++ c :: b).dropWhile (· ≠ c) = c :: b := by
  induction a with
  | nil => simp
  | cons x a ih =>
    have hx : x ≠ c := fun e => h (by simp [e])
    have := ih fun e => h (by simp [e])
    simp only [ne_eq, decide_not] at this
    simp [hx, this.1, this.2]

/-- A frame with these members, the others being those of a new frame. -/
def asRead (function library source : Str) : GdbFrame :=
  { functionName := some function, libraryName := some library, sourceFile := some source, sourceLine := 4294967295, address := 18446744073709551615 }

theorem readFrame_line (f r rest : Str) (hf : ' ' ∉ f) (hr : '\n' ∉ r) :
    readFrame (f ++ ' ' :: r ++ '\n' :: rest) = (asRead f (' ' :: r) [], rest) := by
  unfold readFrame
  have h1 := takeWhile_until ' ' f (r ++ '\n' :: rest) hf
  have h2 := takeWhile_until '\n' (' ' :: r) rest (by simpa using hr)
  have e : f ++ ' ' :: r ++ '\n' :: rest = f ++ ' ' :: (r ++ '\n' :: rest) := by simp
  rw [e]
  dsimp only
  rw [h1.1, h1.2, show ' ' :: (r ++ '\n' :: rest) = (' ' :: r) ++ '\n' :: rest from rfl, h2.1, h2.2]
  simp [asRead]

theorem readFrames_lines (ls : List (Str × Str)) (h : ∀ x ∈ ls, ' ' ∉ x.1 ∧ '\n' ∉ x.2) (n : Nat) (hn : (linesText ls).length < n) :
    ∃ fs, readFrames n (linesText ls) = .ok fs ∧ fs.map nameOf = ls.map Prod.fst ∧ ∀ f ∈ fs, Plain f := by
  induction ls generalizing n with
  | nil =>
    obtain ⟨n, rfl⟩ := Nat.exists_eq_succ_of_ne_zero (n := n) (by omega)
    exact ⟨[], rfl, rfl, by simp⟩
  | cons x ls ih =>
    obtain ⟨f, r⟩ := x
    obtain ⟨n, rfl⟩ := Nat.exists_eq_succ_of_ne_zero (n := n) (by omega)
    have hx := h (f, r) (by simp)
    have hl := readFrame_line f r (linesText ls) hx.1 hx.2
    obtain ⟨fs, h1, h2, h3⟩ := ih (fun y hy => h y (by simp [hy])) n (by simp [linesText] at hn; omega)
    unfold readFrames
    rw [if_neg (by simp [linesText]), linesText, hl, h1]
    refine ⟨_, rfl, by simp [nameOf, h2, asRead], ?_⟩
    intro g hg
    rcases List.mem_cons.1 hg with rfl | hg
    · exact ⟨⟨_, rfl⟩, rfl, rfl, rfl, rfl⟩
    · exact h3 g hg

/-- The thread that the lines of a file describe, with function, library and source file of each frame, would be printed like this. -/
def Described (ls : List (Str × Str × Str)) (out : Str) : Prop :=
  ∃ r, normalizeGdb (Crash.nodes (ls.map fun x => asRead x.1 x.2.1 x.2.2)) = .ok r ∧ out = Short.gdbThread false { frames := r.map Node.val } ++ c!"\n"

/-- A file with these frames. -/
def describedText (ls : List (Str × Str × Str)) : Str := linesText (ls.map fun x => (x.1, x.2.1 ++ ' ' :: x.2.2))

/-- C118, what is printed for a file of lines with a function, a space and anything else (missing: the library and the source file
are not read, see `C118_not_source`; lines without a space are taken together with the next one, see `C118_not_lines`): the names
are normalized as if no source file contained any of the expected strings. -/
theorem C118_names_partial (w : World) (file : Str) (rest : List Str) (ls : List (Str × Str))
    (h : ∀ x ∈ ls, ' ' ∉ x.1 ∧ '\n' ∉ x.2) (hf : w.file file = .inl (linesText ls)) :
    main w (c!"debug" :: c!"normalize" :: file :: rest) =
      .ok { out := c!"Thread\n" ++ namesText (shownNames (ls.map Prod.fst)) ++ c!"\n", err := [], status := 0 } := by
  show debugNormalize w (file :: rest) = _
  unfold debugNormalize
  dsimp only
  rw [hf]
  obtain ⟨fs, h1, h2, h3⟩ := readFrames_lines ls h _ (Nat.lt_succ_self _)
  dsimp only
  rw [h1]
  simp only [Out.bind_ok]
  unfold normalized
  rw [normalizeGdb_eq _ (Crash.nodes_wf fs)]
  simp only [Out.bind_ok]
  have hn : ∀ n ∈ Crash.nodes fs, Plain n.val := by
    intro n hn
    refine h3 _ ?_
    rw [← Crash.nodes_val fs]
    exact List.mem_map_of_mem hn
  obtain ⟨h4, h5⟩ := pipeline_plain _ hn
  unfold Short.gdbThread
  rw [frames_text _ h5, h4, ← h2]
  have : ((Crash.nodes fs).map fun n => nameOf n.val) = fs.map nameOf := by
    conv_rhs => rw [← Crash.nodes_val fs]
    rw [List.map_map]
    rfl
  rw [this]
  rfl

example : shownNames [c!"raise", c!"__assert_fail", c!"__GI_f", c!"f", c!"main"] = [c!"f", c!"main"] := by decide +kernel

/-- A world with one file. -/
def oneFile (text : Str) : World where
  name := c!"satyr"
  version := c!"0.1"
  file _ := .inl text
  dir _ := ⟨fun _ => false, fun _ => none⟩
  dirMessage _ := c!"no"
  errno := 0
  qsort _ l := l
  sha1 s := s
  parseMessage _ _ := c!"no"
  create _ := none
  hook _ _ _ := none

/-- C118 does not hold: `abort` in abort.c is printed, although it is removed from the thread described. -/
theorem C118_not_source : ∃ ls : List (Str × Str × Str), ∃ out : Str, (∀ x ∈ ls, ' ' ∉ x.1 ∧ ' ' ∉ x.2.1 ∧ ' ' ∉ x.2.2) ∧
    Described ls out ∧ ∃ r, main (oneFile (describedText ls)) [c!"debug", c!"normalize", c!"x"] = .ok r ∧ r.out ≠ out := by
  refine ⟨[(c!"abort", c!"libc.so.6", c!"abort.c"), (c!"main", c!"a.out", c!"main.c")], c!"Thread\n  main\n\n", by decide +kernel,
    ⟨[⟨1, asRead c!"main" c!"a.out" c!"main.c"⟩], by decide +kernel, by decide +kernel⟩,
    { out := c!"Thread\n  abort\n  main\n\n" }, by decide +kernel, by decide +kernel⟩

/-- C118 does not hold: two lines with nothing but a function are one function. -/
theorem C118_not_lines : main (oneFile c!"f\ng\n") [c!"debug", c!"normalize", c!"x"] = .ok { out := c!"Thread\n  f\ng\n\n\n" } := by
  decide +kernel

end Satyr.Cli
