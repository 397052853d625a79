import Verif.Cli.Normalize
import Verif.Abrt.Report
import Verif.Generic.Cmp
import Verif.Hash.Dup
/-! # The program `satyr`: status, messages and what the commands print -/
namespace Satyr.Cli
open Satyr.CStr Satyr.Frames Satyr.Report Satyr.Hash Satyr.Abrt

/-- The status is 0 or 1; a failure is explained on standard error; a success is not. -/
def Clear (r : Ran) : Prop := (r.status = 0 ∧ r.err = []) ∨ (r.status = 1 ∧ r.err ≠ [])

theorem clear_failed (m : Str) : Clear (failed m) := .inr ⟨rfl, by simp [failed]⟩

theorem clear_usage (w : World) (m : Str) (h : m ≠ []) : Clear (shortUsage w m) := .inr ⟨rfl, h⟩

theorem clear_bind {A : Type} {x : Out A} {f : A → Out Ran} {r : Ran} (h : (x >>= f) = .ok r) (hf : ∀ a, f a = .ok r → Clear r) : Clear r := by
  cases x with
  | ok a => exact hf a h
  | abort => cases h
  | ub => cases h

theorem clear_debug (w : World) (args : List Str) (r : Ran) (h : debug w args = .ok r) : Clear r := by
  unfold debug at h
  cases args with
  | nil => cases h; exact clear_usage _ _ (by simp)
  | cons c args =>
    dsimp only at h
    split at h
    · unfold debugNormalize at h
      cases args with
      | nil => cases h; exact clear_usage _ _ (by simp)
      | cons f args =>
        dsimp only at h
        cases hf : w.file f with
        | inr m => rw [hf] at h; cases h; exact clear_failed _
        | inl text =>
          rw [hf] at h
          refine clear_bind h fun fs h => clear_bind h fun fs h => ?_
          cases h
          exact .inl ⟨rfl, rfl⟩
    split at h
    · unfold debugDuphash at h
      rcases args with _ | ⟨type, _ | ⟨file, rest⟩⟩
      · cases h; exact clear_usage _ _ (by simp)
      · cases h; exact clear_usage _ _ (by simp)
      · dsimp only at h
        split at h
        · cases h; exact clear_failed _
        · cases hf : w.file file with
          | inr m => rw [hf] at h; cases h; exact clear_failed _
          | inl text =>
            rw [hf] at h
            refine clear_bind h fun t h => ?_
            cases t with
            | none => cases h; exact clear_failed _
            | some t =>
              refine clear_bind h fun th h => ?_
              cases th with
              | none => cases h; exact clear_failed _
              | some th =>
                refine clear_bind h fun clear h => ?_
                cases clear with
                | none => cases h; exact clear_failed _
                | some clear =>
                  refine clear_bind h fun hash h => ?_
                  cases hash with
                  | none => cases h; exact .inr ⟨rfl, by simp [failed]⟩
                  | some hash => cases h; exact .inl ⟨rfl, rfl⟩
    split at h
    · cases h
      unfold debugUnwind
      split
      · dsimp only
        split
        · exact clear_failed _
        split
        · exact clear_failed _
        split
        · exact .inl ⟨rfl, rfl⟩
        · exact clear_failed _
      · exact clear_failed _
    · cases h; exact clear_usage _ _ (by simp)

/-- C117: the status of the program is 0 or 1. If it is 1, there is a message on standard error, unless there were no arguments; if it
is 0, there is none, unless the command was `abrt-report-dir`, which is not implemented. -/
theorem C117_status (w : World) (args : List Str) (r : Ran) (h : main w args = .ok r) :
    (r.status = 0 ∨ r.status = 1) ∧ (r.status = 1 → args ≠ [] → r.err ≠ []) ∧
    (r.status = 0 → args.head? ≠ some c!"abrt-report-dir" → r.err = []) := by
  have key : Clear r → (r.status = 0 ∨ r.status = 1) ∧ (r.status = 1 → args ≠ [] → r.err ≠ []) ∧
      (r.status = 0 → args.head? ≠ some c!"abrt-report-dir" → r.err = []) := by
    rintro (⟨h1, h2⟩ | ⟨h1, h2⟩)
    · exact ⟨.inl h1, fun h => absurd (h1.symm.trans h) (by decide), fun _ _ => h2⟩
    · exact ⟨.inr h1, fun _ _ => h2, fun h => absurd (h1.symm.trans h) (by decide)⟩
  cases args with
  | nil => cases h; exact ⟨.inr rfl, fun _ h => absurd rfl h, fun h => by cases h⟩
  | cons c args =>
    unfold main at h
    dsimp only at h
    split at h
    · cases h; exact key (.inl ⟨rfl, rfl⟩)
    split at h
    · cases h; exact key (.inl ⟨rfl, rfl⟩)
    split at h
    · cases h; exact key (.inl ⟨rfl, rfl⟩)
    split at h
    · refine key ?_
      unfold printReport at h
      cases args with
      | nil => cases h; exact clear_usage _ _ (by simp)
      | cons d args =>
        refine clear_bind h fun x h => ?_
        obtain ⟨_ | rep, _ | _⟩ := x
        · cases h
        · cases h; exact clear_failed _
        all_goals
          refine clear_bind h fun j h => ?_
          cases h
          exact .inl ⟨rfl, rfl⟩
    split at h
    · rename_i hc
      cases h
      have hc := strcmp_eq_zero.1 hc
      subst hc
      exact ⟨.inl rfl, (fun h => by cases h), fun _ h => absurd rfl h⟩
    split at h
    · cases h
      refine key ?_
      unfold createCore
      split
      · exact clear_usage _ _ (by simp)
      · split
        · exact .inl ⟨rfl, rfl⟩
        · exact clear_failed _
    split at h
    · exact key (clear_debug w args r h)
    · cases h; exact key (clear_usage _ _ (by simp))

/-- C117: `abrt-print-report-from-dir` prints the report of the directory, as JSON, and a newline, if the directory describes a report;
otherwise it does not succeed. -/
theorem C117_report (w : World) (d : Str) (rest : List Str) :
    (∀ rep, IsReport w.qsort c!"satyr" w.version w.errno (w.dir d) rep →
      main w (c!"abrt-print-report-from-dir" :: d :: rest) = (Report.toJson rep).bind fun j => .ok { out := j ++ c!"\n" }) ∧
    ((∀ rep, ¬ IsReport w.qsort c!"satyr" w.version w.errno (w.dir d) rep) →
      ∀ r, main w (c!"abrt-print-report-from-dir" :: d :: rest) = .ok r → r.status = 1 ∧ r.out = []) := by
  have e : main w (c!"abrt-print-report-from-dir" :: d :: rest) = printReport w (d :: rest) := rfl
  rw [e]
  unfold printReport
  constructor
  · intro rep hrep
    obtain ⟨m, hm⟩ := (C80_report w.qsort c!"satyr" w.version w.errno (w.dir d) false rep).2 hrep
    dsimp only
    rw [hm]
    rfl
  · intro hn r h
    dsimp only at h
    cases hr : Abrt.report w.qsort c!"satyr" w.version w.errno (w.dir d) false with
    | abort => rw [hr] at h; cases h
    | ub => rw [hr] at h; cases h
    | ok x =>
      rw [hr] at h
      obtain ⟨_ | rep, m⟩ := x
      · cases m with
        | false => cases h
        | true => cases h; exact ⟨rfl, rfl⟩
      · exact absurd ((C80_report w.qsort c!"satyr" w.version w.errno (w.dir d) false rep).1 ⟨m, hr⟩) (hn rep)

/-- C117: a command that is none of the documented ones fails. -/
theorem C117_unknown (w : World) (c : Str) (args : List Str)
    (h : c ∉ [c!"--help", c!"--usage", c!"--version", c!"abrt-print-report-from-dir", c!"abrt-report-dir", c!"abrt-create-core-stacktrace",
      c!"debug"]) : ∃ r, main w (c :: args) = .ok r ∧ r.status = 1 ∧ r.err = c!"Unknown command.\n" := by
  simp only [List.mem_cons, List.not_mem_nil, or_false, not_or] at h
  unfold main
  simp only [strcmp_eq_zero]
  obtain ⟨h1, h2, h3, h4, h5, h6, h7⟩ := h
  rw [if_neg h1, if_neg h2, if_neg h3, if_neg h4, if_neg h5, if_neg h6, if_neg h7]
  exact ⟨_, rfl, rfl, rfl⟩

/-- A world with one problem directory. -/
def oneDir (d : Dir) : World := { oneFile [] with dir := fun _ => d }

/-- C117 does not hold: there is a directory for which the program prints a message that has never been assigned, see
`C84_not_explained`. -/
theorem C117_not_defined : main (oneDir (unpackaged true)) [c!"abrt-print-report-from-dir", c!"/var/tmp/x"] = .ub := by decide +kernel

/-! ## The commands for debugging -/

/-- C119: `debug duphash TYPE FILE COMPONENT` for a file with a stack trace of the type that has a crash thread prints the text made of
the component and the first three frames of the normalized thread, and the hash of that text. -/
theorem C119_duphash (w : World) (type file text : Str) (rest : List Str) (t : Stacktrace) (th : Generic.Thread)
    (hf : w.file file = .inl text) (ht : typeFromString (some type) ≠ 0)
    (hp : Generic.parse (typeFromString (some type)) text = .ok (some t)) (hc : Generic.findCrashThread t = .ok (some th)) :
    ∃ t', (Generic.toHash th).normalize = .ok t' ∧
      main w (c!"debug" :: c!"duphash" :: type :: file :: rest) = .ok {
        out := c!"Cleartext:\n" ++ dupText rest.head? {} (leading {} 3 t') ++ c!"\n" ++
          c!"Hash: " ++ w.sha1 (dupText rest.head? {} (leading {} 3 t')) ++ c!"\n", err := [], status := 0 } := by
  have hw : (Generic.toHash th).WF := by
    cases th <;> exact Crash.nodes_wf _
  obtain ⟨t', h1, h2⟩ := C19_normalized w.sha1 (Generic.toHash th) 3 rest.head? { nohash := true } rfl hw
  obtain ⟨t'', h1', h3⟩ := C19_normalized w.sha1 (Generic.toHash th) 3 rest.head? {} rfl hw
  have e : t'' = t' := by
    rw [h1] at h1'
    cases h1'
    rfl
  subst e
  refine ⟨t'', h1, ?_⟩
  show debugDuphash w (type :: file :: rest) = _
  unfold debugDuphash
  dsimp only
  rw [if_neg ht, hf]
  dsimp only
  rw [hp]
  simp only [Out.bind_ok]
  unfold printDuphash
  rw [hc]
  simp only [Out.bind_ok]
  rw [Generic.C114_duphash, Generic.C114_duphash, h2, h3]
  have e : leading { nohash := true } 3 t'' = leading {} 3 t'' := by
    cases t'' <;> rfl
  rw [e]
  rfl

/-- C119: `debug duphash` for a type that is not a name of a type of stack traces, a file that cannot be read, a text that is not a
stack trace of the type, and a stack trace without a crash thread has status 1 and prints nothing to standard output. -/
theorem C119_no_duphash (w : World) (type file : Str) (rest : List Str) (r : Ran)
    (hr : main w (c!"debug" :: c!"duphash" :: type :: file :: rest) = .ok r)
    (h : typeFromString (some type) = 0 ∨ (∃ m, w.file file = .inr m) ∨ ∃ text, w.file file = .inl text ∧
      (Generic.parse (typeFromString (some type)) text = .ok none ∨
      ∃ t, Generic.parse (typeFromString (some type)) text = .ok (some t) ∧ Generic.findCrashThread t = .ok none)) :
    r.status = 1 ∧ r.out = [] := by
  change debugDuphash w (type :: file :: rest) = _ at hr
  unfold debugDuphash at hr
  dsimp only at hr
  by_cases h0 : typeFromString (some type) = 0
  · rw [if_pos h0] at hr
    cases hr
    exact ⟨rfl, rfl⟩
  · rw [if_neg h0] at hr
    rcases h with h | ⟨m, h⟩ | ⟨text, h, hp | ⟨t, hp, hc⟩⟩
    · exact absurd h h0
    · rw [h] at hr
      cases hr
      exact ⟨rfl, rfl⟩
    · rw [h] at hr
      dsimp only at hr
      rw [hp] at hr
      cases hr
      exact ⟨rfl, rfl⟩
    · rw [h] at hr
      dsimp only at hr
      rw [hp] at hr
      simp only [Out.bind_ok] at hr
      unfold printDuphash at hr
      rw [hc] at hr
      cases hr
      exact ⟨rfl, rfl⟩

example : main (oneFile c!"Error: no\n    at f (/a.js:1:2)\n    at /b.js:3:4\n") [c!"debug", c!"duphash", c!"javascript", c!"x", c!"comp"] =
    .ok { out := c!"Cleartext:\ncompThread\n/a.js:1\n/b.js:3\n\nHash: compThread\n/a.js:1\n/b.js:3\n\n" } := by decide +kernel

theorem strtoull_all (n : Nat) (hn : n < 2 ^ 31) : (strtoull 10 (natDec n)).value = n ∧ (strtoull 10 (natDec n)).rest = [] := by
  obtain ⟨h1, h2, h3⟩ := natDec_spec n
  rw [strtoull_digits 10 (natDec n) h2 fun c hc => (digits10_val c (List.contains_iff_mem.1 (h1 c hc))).2]
  have e : ofDigits 10 (natDec n) = n := (ofDigits_dec h1).trans h3
  rw [e, if_neg (by unfold ullMax; omega)]
  exact ⟨rfl, rfl⟩

/-- C119, for decimal numbers below 2^31 (missing: other texts are refused; see `C119_not_number`): `debug unwind-from-hook` unwinds the
thread with the given number, with the given signal. -/
theorem C119_hook_partial (w : World) (executable : Str) (tid signal : Nat) (ht : tid < 2 ^ 31) (hs : signal < 2 ^ 31) :
    main w [c!"debug", c!"unwind-from-hook", executable, natDec tid, natDec signal] =
      match w.hook executable tid signal with
      | none => .ok {}
      | some m => .ok (failed m) := by
  show Out.ok (debugUnwind w [executable, natDec tid, natDec signal]) = _
  unfold debugUnwind
  obtain ⟨h1, h2⟩ := strtoull_all tid ht
  obtain ⟨h3, h4⟩ := strtoull_all signal hs
  dsimp only
  have hw : ∀ n : Nat, n < 2 ^ 31 → wrap32 n = n := by
    intro n hn
    unfold wrap32
    omega
  rw [h1, h2, h3, h4, if_neg (by simp), if_neg (by simp), hw _ ht, hw _ hs]
  cases w.hook executable tid signal <;> rfl

/-- C119 does not hold for other texts: an empty text is taken as 0, and a number that is too large as another one. -/
theorem C119_not_number (w : World) : main w [c!"debug", c!"unwind-from-hook", c!"x", c!"", c!"4294967307"] =
    main w [c!"debug", c!"unwind-from-hook", c!"x", c!"0", c!"11"] := by
  show Out.ok (debugUnwind w _) = Out.ok (debugUnwind w _)
  unfold debugUnwind
  have h1 : strtoull 10 c!"" = ⟨0, false, true, []⟩ := by decide +kernel
  have h2 : strtoull 10 c!"4294967307" = ⟨4294967307, false, false, []⟩ := by decide +kernel
  have h3 : strtoull 10 c!"0" = ⟨0, false, false, []⟩ := by decide +kernel
  have h4 : strtoull 10 c!"11" = ⟨11, false, false, []⟩ := by decide +kernel
  dsimp only
  rw [h1, h2, h3, h4]
  have h5 : wrap32 (4294967307 : Nat) = wrap32 (11 : Nat) := by decide
  dsimp only
  rw [h5]

end Satyr.Cli
