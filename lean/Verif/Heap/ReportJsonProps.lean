import Verif.Heap.ReportJsonWhole
/-!
# Reading reports from JSON and memory

C145: reading an operating system or a report from JSON gives a structure with the contents of the document in new memory; a
document that cannot be read leaves nothing but the message.
-/
namespace Satyr.Heap
open Satyr.CStr
open Satyr.Json
open Satyr.Frames
open Satyr.Report (ReportType typeFromString entries UReport traceFromJson)

/-- **C145** for operating systems whose desktop and variant are texts if they are there: either memory runs out, or the document
cannot be read, the result is NULL and nothing but the message is left in memory, or the result has exactly the contents of the
document, in memory that was free, and no other memory was changed. -/
theorem C145_system_partial (A : Allocator) (j : Value) (m : Mem) (err : Option Ptr) (hq : QuietOs j) :
    Outcome .system m err ((Os.fromJson j).map systemPart) (readSystem A j ⟨m, err⟩) :=
  (readSystem_spec A j m err hq).outcome

/-- **C145** for reports in which nothing is wrong that is reported and then ignored. -/
theorem C145_report_partial (A : Allocator) (name version : Str) (j : Value) (m : Mem) (err : Option Ptr) (hq : Quiet name version j) :
    ∃ v, Report.fromJson name version j = .ok v ∧ (readReport A j ⟨m, err⟩ = .abort ∨ match v with
    | none => ∃ msg s, readReport A j ⟨m, err⟩ = .ok (0, s) ∧ Reported m err msg s
    | some r => ∃ p m' w f, readReport A j ⟨m, err⟩ = .ok (p, ⟨m', err⟩) ∧
        Holds m' ((reportPart r (given j c!"name") (given j c!"version") w).chain .report 0) true p f ∧ Adds m m' f ∧ CrashAt m' p r.stacktrace) := by
  obtain ⟨v, hv, h⟩ := readReport_spec A name version j m err hq
  refine ⟨v, hv, ?_⟩
  rcases h with h | h
  · exact .inl h
  · cases v with
    | none => exact .inr h
    | some r =>
      obtain ⟨p, m', w, e, hb, hcr⟩ := h
      obtain ⟨rec, f, _, h2, h3, h4⟩ := hb.holds
      have h2 : rec.crashThread = 0 := h2
      rw [h2] at h3
      exact .inr ⟨p, m', w, f, e, h3, h4, hcr⟩

/-- **C145**: freeing an operating system that was read gives back all of its memory, and no other memory. -/
theorem C145_system_freed_partial (A : Allocator) (j : Value) (m : Mem) (err : Option Ptr) (hq : QuietOs j) (p : Ptr) (s : State)
    (h : readSystem A j ⟨m, err⟩ = .ok (p, s)) (hp : p ≠ 0) (b : Bool) : s.err = err ∧ Heap.free (room j) p b s.mem = .ok m := by
  rcases readSystem_spec A j m err hq with e | h1
  · rw [e] at h; cases h
  · cases hr : Os.fromJson j with
    | none =>
      rw [hr] at h1
      obtain ⟨msg, s', e, _⟩ := h1
      rw [e] at h
      cases h
      exact absurd rfl hp
    | some o =>
      rw [hr] at h1
      obtain ⟨p', m', e, hb⟩ := h1
      rw [e] at h
      cases h
      exact ⟨rfl, hb.free' (fun e => by cases e) b⟩

/-- **C145**: freeing a report that was read from a document without the texts of the reporter gives back all of its memory, and no
other memory. -/
theorem C145_report_freed_partial (A : Allocator) (name version : Str) (j : Value) (m : Mem) (err : Option Ptr) (hq : Quiet name version j)
    (hc : Clean j) (p : Ptr) (s : State) (h : readReport A j ⟨m, err⟩ = .ok (p, s)) (hp : p ≠ 0) (b : Bool) :
    s.err = err ∧ Heap.free (room j) p b s.mem = .ok m := by
  obtain ⟨v, _, h1⟩ := readReport_spec A name version j m err hq
  rcases h1 with e | h1
  · rw [e] at h; cases h
  · cases v with
    | none =>
      obtain ⟨msg, s', e, _⟩ := h1
      rw [e] at h
      cases h
      exact absurd rfl hp
    | some r =>
      obtain ⟨p', m', w, e, hb, _⟩ := h1
      rw [e] at h
      cases h
      refine ⟨rfl, hb.free' (fun _ => ?_) b⟩
      rw [hc.1, hc.2]
      exact ⟨rfl, rfl⟩

/-! ## Examples -/

def osDoc (name desktop : Value) : Value := .obj [(c!"name", name), (c!"uptime", .num 5), (c!"desktop", desktop)]

example : QuietOs (osDoc (.str c!"fedora") (.str c!"gnome")) ∧ QuietOs (osDoc (.num 1) (.str c!"gnome")) ∧
    seen (readSystem firstFree (osDoc (.str c!"fedora") (.str c!"gnome")) ⟨noMem, some 0⟩) = some (1, 3, some 0) ∧
    seen (readSystem firstFree (osDoc (.num 1) (.str c!"gnome")) ⟨noMem, some 0⟩) = some (0, 1, some 2) := by
  unfold QuietOs; decide +kernel

def reportDoc (reporter trace : List (Str × Value)) (serial first second : Value) : Value :=
  .obj [(c!"ureport_version", .num 2), (c!"reporter", .obj reporter), (c!"os", osDoc (.str c!"fedora") (.str c!"gnome")),
    (c!"packages", .arr [.obj [(c!"name", .str c!"a")], .obj [(c!"name", .str c!"b")]]),
    (c!"problem", .obj ([(c!"type", .str c!"core"), (c!"component", .str c!"a"), (c!"serial", serial)] ++ trace)),
    (c!"auth", .obj [(c!"hostname", first), (c!"machine", second)])]

def threadsDoc : List (Str × Value) :=
  [(c!"signal", .num 11), (c!"stacktrace", .arr [.obj [(c!"crash_thread", .bool true), (c!"frames", .arr [.obj [(c!"address", .num 1)]])]])]

def goodDoc : Value := reportDoc [] threadsDoc (.num 1) (.str c!"x") (.str c!"y")
def wrongDoc : Value := reportDoc [] threadsDoc (.str []) (.str c!"x") (.str c!"y")

/-- The documents of the examples meet the hypothesis. -/
theorem reportDoc_quiet {reporter : List (Str × Value)} {serial : Value} {x y : Str}
    (h : Clean (reportDoc reporter threadsDoc serial (.str x) (.str y)) ∨
      ∃ r, Report.fromJson c!"satyr" c!"1" (reportDoc reporter threadsDoc serial (.str x) (.str y)) = .ok (some r)) :
    Quiet c!"satyr" c!"1" (reportDoc reporter threadsDoc serial (.str x) (.str y)) := by
  refine ⟨fun v hv => ?_, fun v t hv ht => .inr ?_, fun l hl e he => ?_, h⟩
  · cases (show some _ = some v from hv)
    unfold QuietOs; decide +kernel
  · cases (show some _ = some v from hv)
    cases (show some (some c!"core") = some t from ht)
    exact ⟨_, rfl⟩
  · cases (show some _ = some (Value.obj l) from hl)
    rcases List.mem_cons.1 he with rfl | he
    · exact ⟨_, rfl⟩
    · rcases List.mem_cons.1 he with rfl | he
      · exact ⟨_, rfl⟩
      · cases he

example : Quiet c!"satyr" c!"1" goodDoc ∧ Quiet c!"satyr" c!"1" wrongDoc ∧ Clean goodDoc ∧
    seen (readReport firstFree goodDoc ⟨noMem, some 0⟩) = some (1, 18, some 0) ∧
    seen (readReport firstFree wrongDoc ⟨noMem, some 0⟩) = some (0, 1, some 11) :=
  ⟨reportDoc_quiet (.inl ⟨rfl, rfl⟩), reportDoc_quiet (.inl ⟨rfl, rfl⟩), ⟨rfl, rfl⟩, by decide +kernel⟩

/-! ## Where it fails -/

/-- The document is read as a report, or is not read. -/
def readable (j : Value) : Option Bool :=
  match Report.fromJson c!"satyr" c!"1" j with
  | .ok v => some v.isSome
  | _ => none

/-- **C145** fails if the desktop is not a text: there is a message although the operating system was read. -/
theorem C145_not_desktop : ∃ (A : Allocator) (j : Value) (m : Mem) (p q : Ptr) (n : Nat), (Os.fromJson j).isSome = true ∧
    seen (readSystem A j ⟨m, some 0⟩) = some (p, n, some q) ∧ p ≠ 0 ∧ q ≠ 0 :=
  ⟨firstFree, osDoc (.str c!"fedora") (.num 1), noMem, 1, 3, 3, by decide +kernel⟩

/-- **C145** fails if the name and the desktop are not texts: two messages are left in memory, and only one of them is given to the
caller. -/
theorem C145_not_two_messages : ∃ (A : Allocator) (j : Value) (q : Ptr), Os.fromJson j = none ∧
    seen (readSystem A j ⟨noMem, some 0⟩) = some (0, 2, some q) :=
  ⟨firstFree, osDoc (.num 1) (.num 1), 3, by decide +kernel⟩

/-- **C145** fails for a report that cannot be read after the name of the reporter: the name is left in memory with the message. -/
theorem C145_not_reporter : ∃ (A : Allocator) (j : Value) (q : Ptr), readable j = some false ∧
    seen (readReport A j ⟨noMem, some 0⟩) = some (0, 2, some q) :=
  ⟨firstFree, reportDoc [(c!"name", .str c!"abrt")] threadsDoc (.str []) (.str c!"x") (.str c!"y"), 12, by decide +kernel⟩

/-- The result of freeing, as in `seen`. -/
def seenFreed (j : Value) (o : Out (Ptr × State)) : Option (Ptr × Nat × Option Ptr) :=
  seen (o.bind fun (p, s) => (Heap.free (room j) p false s.mem).bind fun m => .ok (p, ⟨m, s.err⟩))

/-- **C145** fails for a report with the name of a reporter: when it is freed, the name is left in memory. -/
theorem C145_not_reporter_freed : ∃ (A : Allocator) (j : Value) (p : Ptr), Quiet c!"satyr" c!"1" j ∧ p ≠ 0 ∧
    seenFreed j (readReport A j ⟨noMem, some 0⟩) = some (p, 1, some 0) :=
  ⟨firstFree, reportDoc [(c!"name", .str c!"abrt")] threadsDoc (.num 1) (.str c!"x") (.str c!"y"), 1, reportDoc_quiet (.inr ⟨_, rfl⟩), by decide +kernel⟩

/-- The other report of the examples is freed with all of its memory. -/
example : seenFreed goodDoc (readReport firstFree goodDoc ⟨noMem, some 0⟩) = some (1, 0, some 0) := by decide +kernel

/-- **C145** fails if the stack trace cannot be read: there is a message although the report was read. -/
theorem C145_not_trace : ∃ (A : Allocator) (j : Value) (p q : Ptr) (n : Nat), readable j = some true ∧
    seen (readReport A j ⟨noMem, some 0⟩) = some (p, n, some q) ∧ p ≠ 0 ∧ q ≠ 0 :=
  ⟨firstFree, reportDoc [] [(c!"stacktrace", .num 1)] (.num 1) (.str c!"x") (.str c!"y"), 1, 12, 16, by decide +kernel⟩

/-- **C145** fails if two authentication entries are not texts: the report is read, and when it and the message are freed the other
message is left in memory. -/
theorem C145_not_auth : ∃ (A : Allocator) (j : Value) (p q : Ptr), readable j = some true ∧ p ≠ 0 ∧ q ≠ 0 ∧
    seenFreed j (readReport A j ⟨noMem, some 0⟩) = some (p, 2, some q) :=
  ⟨firstFree, reportDoc [] threadsDoc (.num 1) (.num 1) (.num 2), 1, 14, by decide +kernel⟩

end Satyr.Heap
