import Verif.Cli.Props
import Verif.Rpm.Names
/-! # The program `satyr`: numbers it refuses, and the commands its help tells of -/
namespace Satyr.Cli
open Satyr.CStr Satyr.Rpm Satyr.Frames

/-! ## Numbers -/

/-- What is accepted as a number: nothing, or white space, a sign and digits. -/
def Numeral (s : Str) : Prop :=
  s = [] ∨ ∃ w sg ds : Str, s = w ++ (sg ++ ds) ∧ (∀ c ∈ w, c ∈ c!" \t\r\n\x0b\x0c") ∧ sg ∈ [c!"", c!"+", c!"-"] ∧ ds ≠ [] ∧
    ∀ c ∈ ds, c ∈ c!"0123456789"

/-- The text after white space and a sign. -/
def signed (s : Str) : Str :=
  if peek (s.dropWhile isSpace) = '-' ∨ peek (s.dropWhile isSpace) = '+' then (s.dropWhile isSpace).tail else s.dropWhile isSpace

theorem strtoull_rest (s : Str) : (strtoull 10 s).rest = if (signed s).takeWhile IsDec = [] then s else (signed s).dropWhile IsDec := by
  unfold strtoull signed
  have h1 : (fun c => decide (digitVal c < 10)) = IsDec := funext digitVal_dec
  simp only [h1, Bool.or_eq_true, beq_iff_eq, show ((10 : Nat) = 16) = False from by simp, false_and, if_false]
  generalize (if peek (s.dropWhile isSpace) = '-' ∨ peek (s.dropWhile isSpace) = '+' then (s.dropWhile isSpace).tail
    else s.dropWhile isSpace) = u
  split
  · rfl
  · split <;> rfl

theorem dropWhile_all {p : Char → Bool} {s : Str} (h : s.dropWhile p = []) : ∀ c ∈ s, p c = true := by
  rw [List.dropWhile_eq_nil_iff] at h
  exact h

theorem rest_iff (s : Str) : (strtoull 10 s).rest = [] ↔ Numeral s := by
  rw [strtoull_rest]
  constructor
  · intro h
    split at h
    · exact .inl h
    · rename_i hne
      refine .inr ⟨s.takeWhile isSpace,
        if peek (s.dropWhile isSpace) = '-' ∨ peek (s.dropWhile isSpace) = '+' then [peek (s.dropWhile isSpace)] else [],
        signed s, ?_, fun c hc => ?_, ?_, fun e => hne (by rw [e]; rfl), fun c hc => ?_⟩
      · conv_lhs => rw [← List.takeWhile_append_dropWhile (p := isSpace) (l := s)]
        congr 1
        unfold signed
        split
        · rename_i hp
          cases hs : s.dropWhile isSpace with
          | nil => rw [hs] at hp; exact absurd hp (by decide)
          | cons a l => rfl
        · rfl
      · have := List.mem_takeWhile_imp hc
        exact List.contains_iff_mem.1 this
      · split
        · rename_i hp
          rcases hp with hp | hp <;> rw [hp] <;> decide
        · decide
      · exact List.contains_iff_mem.1 (dropWhile_all h c hc)
  · rintro (rfl | ⟨w, sg, ds, rfl, hw, hsg, hne, hd⟩)
    · rfl
    · obtain ⟨d, ds, rfl⟩ := List.exists_cons_of_ne_nil hne
      have hsp : ∀ c ∈ c!"+-0123456789", isSpace c = false := by decide
      have h1 : (w ++ (sg ++ d :: ds)).dropWhile isSpace = sg ++ d :: ds := by
        rw [List.dropWhile_append_of_pos (p := isSpace) fun c hc => List.contains_iff_mem.2 (hw c hc)]
        have hdd := hd d (by simp)
        have hs : isSpace d = false := hsp d (by simp only [List.mem_cons] at hdd ⊢; exact .inr (.inr hdd))
        simp only [List.mem_cons, List.not_mem_nil, or_false] at hsg
        rcases hsg with rfl | rfl | rfl
        · simp [hs]
        · rfl
        · rfl
      have hall : ∀ c ∈ d :: ds, IsDec c = true := fun c hc => List.contains_iff_mem.2 (hd c hc)
      have hsig : ∀ c ∈ c!"0123456789", ¬ (c = '-' ∨ c = '+') := by decide
      have h2 : signed (w ++ (sg ++ d :: ds)) = d :: ds := by
        unfold signed
        rw [h1]
        simp only [List.mem_cons, List.not_mem_nil, or_false] at hsg
        rcases hsg with rfl | rfl | rfl
        · exact if_neg (hsig d (hd d (by simp)))
        · rfl
        · rfl
      rw [h2, if_neg (by rw [List.takeWhile_eq_self_iff.2 hall]; simp), List.dropWhile_eq_nil_iff]
      exact hall

/-- C119: `debug unwind-from-hook` refuses a thread or signal that is not a number, before anything is unwound; other arguments are
unwound, or the failure of it is told. -/
theorem C119_refused (w : World) (executable tid signal : Str) :
    (¬ Numeral tid → main w [c!"debug", c!"unwind-from-hook", executable, tid, signal] = .ok { out := [], err := c!"Wrong tid\n", status := 1 }) ∧
    (Numeral tid → ¬ Numeral signal →
      main w [c!"debug", c!"unwind-from-hook", executable, tid, signal] = .ok { out := [], err := c!"Wrong signal number\n", status := 1 }) ∧
    (Numeral tid → Numeral signal → ∃ t s, main w [c!"debug", c!"unwind-from-hook", executable, tid, signal] =
      .ok (match w.hook executable t s with
        | none => { out := [], err := [], status := 0 }
        | some m => { out := [], err := m ++ c!"\n", status := 1 })) := by
  have e : main w [c!"debug", c!"unwind-from-hook", executable, tid, signal] = .ok (debugUnwind w [executable, tid, signal]) := rfl
  rw [e]
  unfold debugUnwind
  dsimp only
  refine ⟨fun h => ?_, fun h1 h2 => ?_, fun h1 h2 => ?_⟩
  · rw [if_pos (mt (rest_iff _).1 h)]; rfl
  · rw [if_neg (not_not_intro ((rest_iff _).2 h1)), if_pos (mt (rest_iff _).1 h2)]; rfl
  · rw [if_neg (not_not_intro ((rest_iff _).2 h1)), if_neg (not_not_intro ((rest_iff _).2 h2))]
    refine ⟨wrap32 (strtoull 10 tid).value, wrap32 (strtoull 10 signal).value, ?_⟩
    cases w.hook executable (wrap32 (strtoull 10 tid).value) (wrap32 (strtoull 10 signal).value) <;> rfl

example : Numeral c!" -12" ∧ ¬ Numeral c!"12a" := by
  constructor
  · exact .inr ⟨c!" ", c!"-", c!"12", rfl, by decide, by decide, by decide, by decide⟩
  · exact mt (rest_iff _).2 (by decide +kernel)

/-! ## The help -/

/-- The lines of a text. -/
def linesOf : Str → List Str
  | [] => []
  | c :: s => if c = '\n' then [] :: linesOf s else
    match linesOf s with
    | [] => [[c]]
    | l :: ls => (c :: l) :: ls

theorem linesOf_append {a b : Str} (h : '\n' ∉ a) : linesOf (a ++ '\n' :: b) = a :: linesOf b := by
  induction a with
  | nil => simp [linesOf]
  | cons c a ih =>
    simp only [List.mem_cons, not_or] at h
    rw [List.cons_append, linesOf, if_neg (Ne.symm h.1), ih h.2]

/-- The text has a line that begins with three spaces, the word and a space. -/
def TellsOf (text c : Str) : Prop := ∃ rest, c!"   " ++ (c ++ ' ' :: rest) ∈ linesOf text

theorem word_eq {line c rest : Str} (hs : ' ' ∉ c) (h : line = c!"   " ++ (c ++ ' ' :: rest)) : (line.drop 3).takeWhile (· ≠ ' ') = c := by
  subst h
  show (c ++ ' ' :: rest).takeWhile (· ≠ ' ') = c
  induction c with
  | nil => rfl
  | cons d c ih =>
    simp only [List.mem_cons, not_or] at hs
    rw [List.cons_append, List.takeWhile_cons, if_pos (by simpa using Ne.symm hs.1), ih hs.2]

set_option maxRecDepth 4000 in
/-- C117: the help tells exactly of the commands that are not unknown, apart from options. -/
theorem C117_help (w : World) (hn : '\n' ∉ w.name) (hs : w.name.head? ≠ some ' ') (h0 : w.name ≠ []) (c : Str) (hc : ' ' ∉ c) (hc0 : c ≠ []) :
    ∃ r, main w [c!"--help"] = .ok r ∧
      (TellsOf r.out c ↔ (∀ r', main w [c] = .ok r' → r'.err ≠ c!"Unknown command.\n") ∧ ¬ c!"--" <+: c) := by
  refine ⟨help w, rfl, ?_⟩
  have hl : linesOf (help w).out = [c!"Usage: " ++ w.name ++ c!" COMMAND [OPTION...]",
      w.name ++ c!" -- Automatic problem management with anonymous reports", [],
      c!"The following commands are available:",
      c!"   abrt-print-report-from-dir   Create report from an ABRT directory",
      c!"   abrt-report-dir              Create report from an ABRT directory and",
      c!"                                send it to a server",
      c!"   abrt-create-core-stacktrace  Create core stacktrace from an ABRT directory",
      c!"   debug                        Commands for debugging and development support"] := by
    have e : (help w).out = (c!"Usage: " ++ w.name ++ c!" COMMAND [OPTION...]") ++ '\n' ::
        ((w.name ++ c!" -- Automatic problem management with anonymous reports") ++ '\n' :: c!"\nThe following commands are available:\n   abrt-print-report-from-dir   Create report from an ABRT directory\n   abrt-report-dir              Create report from an ABRT directory and\n                                send it to a server\n   abrt-create-core-stacktrace  Create core stacktrace from an ABRT directory\n   debug                        Commands for debugging and development support\n") := by
      unfold help
      simp only [List.append_assoc]
      rfl
    rw [e, linesOf_append (by simp [hn]), linesOf_append (by simp [hn])]
    refine congrArg _ (congrArg _ ?_)
    decide +kernel
  have key : TellsOf (help w).out c ↔
      c ∈ [c!"abrt-print-report-from-dir", c!"abrt-report-dir", c!"abrt-create-core-stacktrace", c!"debug"] := by
    unfold TellsOf
    rw [hl]
    simp only [List.mem_cons, List.not_mem_nil, or_false]
    constructor
    · rintro ⟨rest, h | h | h | h | h | h | h | h | h⟩
      · cases h
      · obtain ⟨a, l, hw⟩ := List.exists_cons_of_ne_nil h0
        rw [hw] at h hs
        have := (List.cons.inj h).1
        subst this
        exact absurd rfl hs
      · cases h
      · cases h
      · exact .inl ((word_eq hc h.symm).symm.trans (by decide +kernel))
      · exact .inr (.inl ((word_eq hc h.symm).symm.trans (by decide +kernel)))
      · exact absurd ((word_eq hc h.symm).symm.trans (by decide +kernel)) hc0
      · exact .inr (.inr (.inl ((word_eq hc h.symm).symm.trans (by decide +kernel))))
      · exact .inr (.inr (.inr ((word_eq hc h.symm).symm.trans (by decide +kernel))))
    · rintro (rfl | rfl | rfl | rfl)
      · exact ⟨c!"  Create report from an ABRT directory", by simp⟩
      · exact ⟨c!"             Create report from an ABRT directory and", by simp⟩
      · exact ⟨c!" Create core stacktrace from an ABRT directory", by simp⟩
      · exact ⟨c!"                       Commands for debugging and development support", by simp⟩
  rw [key]
  have ne₁ : c!"Missing ABRT problem directory path.\n" ≠ c!"Unknown command.\n" := by decide
  have ne₂ : c!"Missing debug command.\n" ≠ c!"Unknown command.\n" := by decide
  constructor
  · intro h
    simp only [List.mem_cons, List.not_mem_nil, or_false] at h
    rcases h with rfl | rfl | rfl | rfl
    · exact ⟨fun r hr => by cases hr; exact ne₁, by decide⟩
    · exact ⟨fun r hr => by cases hr; decide, by decide⟩
    · exact ⟨fun r hr => by cases hr; exact ne₁, by decide⟩
    · exact ⟨fun r hr => by cases hr; exact ne₂, by decide⟩
  · rintro ⟨h1, h2⟩
    by_contra h
    by_cases h3 : c ∈ [c!"--help", c!"--usage", c!"--version"]
    · simp only [List.mem_cons, List.not_mem_nil, or_false] at h3
      rcases h3 with rfl | rfl | rfl <;> exact h2 (by decide)
    · obtain ⟨r, hr, -, he⟩ := C117_unknown w c [] fun hm => (List.mem_append.1 (show c ∈ [c!"--help", c!"--usage", c!"--version"] ++
        [c!"abrt-print-report-from-dir", c!"abrt-report-dir", c!"abrt-create-core-stacktrace", c!"debug"] from hm)).elim h3 h
      exact h1 r hr he

example : TellsOf (help (oneFile [])).out c!"debug" ↔ True := by
  simp only [iff_true]
  exact ⟨c!"                       Commands for debugging and development support", by decide +kernel⟩

/-- C117: the version is printed. -/
theorem C117_version (w : World) (args : List Str) : ∃ r, main w (c!"--version" :: args) = .ok r ∧ r.status = 0 ∧ r.out = c!"Satyr version " ++ w.version ++ c!"\n" :=
  ⟨_, rfl, rfl, rfl⟩

end Satyr.Cli
