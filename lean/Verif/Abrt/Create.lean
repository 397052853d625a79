import Verif.Abrt.CreateModel
import Verif.Abrt.Report
import Verif.Unwind.Props
/-! # Creating the core stack trace of a problem directory -/
namespace Satyr.Abrt
open Satyr.CStr Satyr.Frames Satyr.Report
open Satyr.Normalize (CoreFrame)

variable {qsort : (Rpm.Package → Rpm.Package → Int) → List Rpm.Package → List Rpm.Package}

/-- Writing a text succeeds. -/
def Disk.Holds (disk : Disk) (text : Str) : Prop := disk.opens = true ∧ text.length ≤ disk.written ∧ disk.closes = true

theorem stringToFile_true {disk : Disk} {d d' : Dir} {name text : Str} {m m' : Bool} :
    stringToFile disk d name text m = (true, m', d') ↔ disk.Holds text ∧ m' = m ∧ d' = d.write name text := by
  unfold stringToFile Disk.Holds
  cases h1 : disk.opens with
  | false => simp
  | true =>
    rw [if_neg (by simp)]
    by_cases h2 : disk.written < text.length
    · rw [if_pos h2]
      simp [Nat.not_le.2 h2]
    · rw [if_neg h2]
      cases h3 : disk.closes with
      | false => simp
      | true =>
        rw [if_neg (by simp)]
        simp only [Prod.mk.injEq, true_and, and_true]
        exact ⟨fun h => ⟨Nat.not_lt.1 h2, h.1.symm, h.2.symm⟩, fun h => ⟨h.2.1.symm, h.2.2.symm⟩⟩

/-- The file has the text in the directory `d'`, and nothing else differs from `d`. -/
def Created (name text : Str) (d d' : Dir) : Prop :=
  d'.exist name = true ∧ d'.contents name = some text ∧ ∀ n, n ≠ name → d'.exist n = d.exist n ∧ d'.contents n = d.contents n

theorem created_iff {name text : Str} {d d' : Dir} : d' = d.write name text ↔ Created name text d d' := by
  unfold Created Dir.write
  constructor
  · rintro rfl
    exact ⟨if_pos rfl, if_pos rfl, fun n hn => ⟨if_neg hn, if_neg hn⟩⟩
  · rintro ⟨h1, h2, h3⟩
    obtain ⟨e, c⟩ := d'
    congr 1 <;> funext n <;> by_cases hn : n = name
    · rw [if_pos hn, hn]; exact h1
    · rw [if_neg hn]; exact (h3 n hn).1
    · rw [if_pos hn, hn]; exact h2
    · rw [if_neg hn]; exact (h3 n hn).2

/-- Nothing but a file is changed. -/
def OnlyFile (name : Str) (d d' : Dir) : Prop := ∀ n, n ≠ name → d'.exist n = d.exist n ∧ d'.contents n = d.contents n

theorem stringToFile_false {disk : Disk} {d d' : Dir} {name text : Str} {m m' : Bool}
    (h : stringToFile disk d name text m = (false, m', d')) : m' = true ∧ OnlyFile name d d' := by
  have hw : ∀ text, OnlyFile name d (d.write name text) := fun text n hn => by simp [Dir.write, hn]
  unfold stringToFile at h
  split at h
  · cases h; exact ⟨rfl, fun _ _ => ⟨rfl, rfl⟩⟩
  split at h
  · cases h; exact ⟨rfl, hw _⟩
  split at h
  · cases h; exact ⟨rfl, hw _⟩
  · cases h

variable (core : Str → Unwind.Core) (realpath : Str → Option Str) (disk : Disk)

/-- C120: from a core dump, a file is created if and only if the executable is known, the core dump has a stack trace (see C93), and it
can be written; then the file has this stack trace and nothing else is changed. -/
theorem C120_created (d d' : Dir) (m' : Bool) :
    createFromCore core realpath disk d = .ok (true, m', d') ↔
      ∃ executable t, d.contents c!"executable" = some executable ∧ Unwind.IsTrace (core executable) executable t ∧
        disk.Holds (coreBacktrace t) ∧ m' = false ∧ Created c!"core_backtrace" (coreBacktrace t) d d' := by
  unfold createFromCore createCore coreTrace
  cases he : d.contents c!"executable" with
  | none => simp
  | some x =>
    simp only [Out.bind_ok, Option.some.injEq]
    cases hp : Unwind.parseCoredump (core x) x with
    | mk o b =>
      cases o with
      | none =>
        simp only [Out.ok.injEq, Prod.mk.injEq, Bool.false_eq_true, false_and, false_iff]
        rintro ⟨x', t, rfl, h, -⟩
        have := (Unwind.C93_trace (core x) x t false).2 ⟨rfl, h⟩
        rw [hp] at this
        cases this
      | some t =>
        obtain ⟨rfl, ht⟩ := (Unwind.C93_trace (core x) x t b).1 hp
        simp only [Out.ok.injEq]
        rw [stringToFile_true]
        constructor
        · rintro ⟨h1, h2, h3⟩
          exact ⟨x, t, rfl, ht, h1, h2, created_iff.1 h3⟩
        · rintro ⟨x', t', rfl, h, h1, h2, h3⟩
          have := (Unwind.C93_trace (core x) x t' false).2 ⟨rfl, h⟩
          rw [hp] at this
          cases this
          exact ⟨h1, h2, created_iff.2 h3⟩

/-- C120: from the output of gdb, a file is created if and only if the executable is known, the core dump can be opened, the output can
be read, and the file can be written; then the file has the threads of gdb as described in C95, and nothing else is changed. -/
theorem C120_created_gdb (gdb : Str) (d d' : Dir) (m' : Bool) :
    createFromGdb core realpath disk (some gdb) d = .ok (true, m', d') ↔
      ∃ executable g rest, d.contents c!"executable" = some executable ∧ (core executable).opens = true ∧
        Gdb.parseTrace gdb = .ok (some (g, rest)) ∧
        disk.Holds (coreBacktrace (Unwind.fromGdb (core executable) g (realpath executable))) ∧ m' = false ∧
        Created c!"core_backtrace" (coreBacktrace (Unwind.fromGdb (core executable) g (realpath executable))) d d' := by
  unfold createFromGdb createCore coreTrace coreFromGdb
  dsimp only
  cases he : d.contents c!"executable" with
  | none => simp
  | some x =>
    simp only [Option.some.injEq]
    cases ho : (core x).opens with
    | false =>
      rw [if_pos rfl]
      simp only [Out.bind_ok, Out.ok.injEq, Prod.mk.injEq, Bool.false_eq_true, false_and, false_iff]
      rintro ⟨x', g, rest, rfl, h, -⟩
      rw [ho] at h
      cases h
    | true =>
      rw [if_neg (by simp)]
      cases hp : Gdb.parseTrace gdb with
      | ok o =>
        simp only [Out.bind_ok]
        cases o with
        | none => simp [Out.bind_ok]
        | some p =>
          obtain ⟨g, rest⟩ := p
          simp only [Out.bind_ok, Out.ok.injEq]
          rw [stringToFile_true]
          constructor
          · rintro ⟨h1, h2, h3⟩
            exact ⟨x, g, rest, rfl, ho, rfl, h1, h2, created_iff.1 h3⟩
          · rintro ⟨x', g', rest', rfl, -, h, h1, h2, h3⟩
            cases h
            exact ⟨h1, h2, created_iff.2 h3⟩
      | abort => simp [Bind.bind, Out.bind]
      | ub => simp [Bind.bind, Out.bind]

/-- C120: a failure is explained, and changes at most the file. -/
theorem C120_failed (gdb : Option Str) (d d' : Dir) (m' : Bool)
    (h : createFromCore core realpath disk d = .ok (false, m', d') ∨ createFromGdb core realpath disk gdb d = .ok (false, m', d')) :
    m' = true ∧ OnlyFile c!"core_backtrace" d d' := by
  have same : OnlyFile c!"core_backtrace" d d := fun _ _ => ⟨rfl, rfl⟩
  have key : ∀ g, createCore core realpath disk g d = .ok (false, m', d') → m' = true ∧ OnlyFile c!"core_backtrace" d d' := by
    intro g h
    unfold createCore at h
    cases he : d.contents c!"executable" with
    | none => rw [he] at h; cases h; exact ⟨rfl, same⟩
    | some x =>
      rw [he] at h
      dsimp only at h
      have hm : ∀ b, coreTrace (core x) (realpath x) x g = .ok (none, b) → b = true := by
        intro b hb
        unfold coreTrace at hb
        cases g with
        | none =>
          cases hb' : Unwind.parseCoredump (core x) x with
          | mk o b' =>
            have := Unwind.C93_message (core x) x
            rw [hb'] at this
            dsimp only at hb
            rw [hb'] at hb
            cases hb
            exact this.1 rfl
        | some g =>
          unfold coreFromGdb at hb
          dsimp only at hb
          split at hb
          · cases hb; rfl
          · cases hp : Gdb.parseTrace g with
            | ok o =>
              rw [hp] at hb
              cases o with
              | none => cases hb; rfl
              | some p => cases hb
            | abort => rw [hp] at hb; cases hb
            | ub => rw [hp] at hb; cases hb
      cases hc : coreTrace (core x) (realpath x) x g with
      | ok p =>
        rw [hc] at h
        obtain ⟨o, b⟩ := p
        cases o with
        | none => cases h; exact ⟨hm _ hc, same⟩
        | some t => exact stringToFile_false (Out.ok.inj h)
      | abort => rw [hc] at h; cases h
      | ub => rw [hc] at h; cases h
  rcases h with h | h
  · exact key none h
  · unfold createFromGdb at h
    cases gdb with
    | none => cases h; exact ⟨rfl, same⟩
    | some g => exact key (some g) h

theorem toSignal_lt (n : Int) : Unwind.toSignal n < 2 ^ 16 := by unfold Unwind.toSignal; omega

/-- C120, from a core dump with threads: the report that is read after the stack trace has been created has the threads of the core dump
in their order, each with the oldest 256 frames of its stack, up to the changes made by writing (C85) and reading (C40). Missing: core
dumps without threads (`C120_not_empty`). -/
theorem C120_report_partial (name version : Str) (errno : Nat) (d d' : Dir) (m' : Bool) (r : UReport) (executable suffix : Str)
    (h : createFromCore core realpath disk d = .ok (true, m', d')) (he : d.contents c!"executable" = some executable)
    (ht : d.contents c!"type" = some (c!"CCpp" ++ suffix)) (h0 : (core executable).threads ≠ [])
    (hr : IsReport qsort name version errno d' r) :
    ∃ t, r.stacktrace = some (.core t) ∧
      List.Forall₂ (fun (th : Unwind.Thread) (x : CoreThread) => ∃ fs, Unwind.IsStack (core executable).modules th.frames fs ∧
        x.frames = (Unwind.lastN 256 fs).map fun f => Json.Core.keepFrame (named f)) (core executable).threads t.threads ∧
      t.executable = some executable ∧
      t.signal = Unwind.toSignal (Unwind.signalNumber (core executable).prstatusSize (core executable).notes) := by
  obtain ⟨x, t, h1, h2, -, -, hd⟩ := (C120_created core realpath disk d d' m').1 h
  obtain rfl := created_iff.2 hd
  rw [he] at h1
  cases h1
  obtain ⟨h3, h4, h5, h6, h7, h8, h9, h10⟩ := h2
  have hne : t.threads ≠ [] := by
    intro e
    rw [e, List.forall₂_nil_right_iff] at h6
    exact h0 h6
  obtain ⟨-, h11⟩ := C85_read_back (qsort := qsort) t hne (by rw [h8]; exact toSignal_lt _) hr ht
  refine ⟨_, h11, ?_, ?_, ?_⟩
  · unfold Json.Core.keep
    rw [C85_fulfilled]
    dsimp only
    rw [List.map_map, List.forall₂_map_right_iff]
    refine h6.imp fun th x hx => ?_
    obtain ⟨-, fs, hs, hf⟩ := hx
    refine ⟨fs, hs, ?_⟩
    simp only [Function.comp, Json.Core.keepThread, List.map_map]
    rw [hf]
    rfl
  · unfold Json.Core.keep
    rw [C85_fulfilled]
    exact h7
  · unfold Json.Core.keep
    rw [C85_fulfilled]
    exact h8

/-- C120, from the output of gdb with threads: the report that is read after the stack trace has been created has the threads of gdb in
their order. Each has frames for the addresses of the oldest 256 frames, if no mark of a signal handler is among those left out (C95). -/
theorem C120_report_gdb_partial (name version : Str) (errno : Nat) (gdb rest : Str) (g : GdbTrace) (d d' : Dir) (m' : Bool) (r : UReport)
    (executable suffix : Str) (h : createFromGdb core realpath disk (some gdb) d = .ok (true, m', d'))
    (hg : Gdb.parseTrace gdb = .ok (some (g, rest))) (he : d.contents c!"executable" = some executable)
    (ht : d.contents c!"type" = some (c!"CCpp" ++ suffix)) (h0 : g.threads ≠ []) (hr : IsReport qsort name version errno d' r) :
    ∃ t, r.stacktrace = some (.core t) ∧
      List.Forall₂ (fun (th : GdbThread) (x : CoreThread) =>
        (∀ f ∈ th.frames.take ((Unwind.calls th.frames).length - 256), f.signalHandlerCalled = false) →
          x.frames = (Unwind.lastN 256 (Unwind.calls th.frames)).map fun f =>
            Json.Core.keepFrame (named (Unwind.resolveFrame (core executable).modules f.address false))) g.threads t.threads ∧
      t.executable = realpath executable ∧
      t.signal = Unwind.toSignal (Unwind.signalNumber (core executable).prstatusSize (core executable).notes) := by
  obtain ⟨x, g', rest', h1, h2, h3, -, -, hd⟩ := (C120_created_gdb core realpath disk gdb d d' m').1 h
  obtain rfl := created_iff.2 hd
  rw [he] at h1
  cases h1
  rw [hg] at h3
  cases h3
  obtain ⟨-, h4, h5, h6⟩ := Unwind.C95_frames_partial (core executable) g (realpath executable)
  have hne : (Unwind.fromGdb (core executable) g (realpath executable)).threads ≠ [] := by
    intro e
    rw [e, List.forall₂_nil_right_iff] at h6
    exact h0 h6
  obtain ⟨-, h11⟩ := C85_read_back (qsort := qsort) _ hne (by rw [h5]; exact toSignal_lt _) hr ht
  refine ⟨_, h11, ?_, ?_, ?_⟩
  · unfold Json.Core.keep
    rw [C85_fulfilled]
    dsimp only
    rw [List.map_map, List.forall₂_map_right_iff]
    refine h6.imp fun th x hx hc => ?_
    simp only [Function.comp, Json.Core.keepThread, List.map_map]
    rw [hx hc, List.map_map]
    rfl
  · unfold Json.Core.keep
    rw [C85_fulfilled]
    exact h4
  · unfold Json.Core.keep
    rw [C85_fulfilled]
    exact h5

/-- The directory of a crash. -/
def crashDir : Dir where
  exist n := n = c!"type" ∨ n = c!"executable"
  contents n := if n = c!"type" then some c!"CCpp" else if n = c!"executable" then some c!"/bin/x" else none

/-- C120 does not hold for core dumps without threads: the stack trace is created, but it is not JSON, and no report can be read. -/
theorem C120_not_empty : ∃ d', createFromCore (fun _ => {}) realpath { written := 1000 } crashDir = .ok (true, false, d') ∧
    ∀ name version errno r, ¬ IsReport qsort name version errno d' r := by
  refine ⟨crashDir.write c!"core_backtrace" (coreBacktrace { executable := some c!"/bin/x" }), ?_, ?_⟩
  · rw [C120_created]
    refine ⟨c!"/bin/x", { executable := some c!"/bin/x" }, rfl, ⟨rfl, rfl, rfl, .nil, rfl, rfl, rfl, rfl⟩, ⟨rfl, ?_, rfl⟩, rfl, created_iff.1 rfl⟩
    decide +kernel
  · intro name version errno r h
    have h4 := h.type
    have h7 := h.stacktrace
    obtain ⟨x, h4, h5⟩ := h4
    cases h4
    have h6 : r.type = .core := h5.trans (C49_abrt_partial .core c!"CCpp" rfl (by decide) [])
    rw [h6] at h7
    obtain ⟨x, v, h8, h9, -⟩ := h7
    cases h8
    have e : Json.parse (coreBacktrace { executable := some c!"/bin/x" }) = none := by decide +kernel
    rw [e] at h9
    cases h9

example : ∃ d' : Dir, createFromCore (fun _ => Unwind.sampleCore) realpath { written := 1000 } crashDir = .ok (true, false, d') := by
  refine ⟨_, (C120_created _ _ _ _ _ _).2 ⟨c!"/bin/x", _, rfl, ((Unwind.C93_trace _ _ _ false).1 rfl).2, ⟨rfl, ?_, rfl⟩, rfl, created_iff.1 rfl⟩⟩
  decide +kernel

end Satyr.Abrt
