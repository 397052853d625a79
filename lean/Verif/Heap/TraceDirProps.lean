import Verif.Heap.TraceDirLemmas
/-!
# The report of a problem directory in memory, with its stack trace

C155: memory after the whole report is read.
-/
namespace Satyr.Heap
open Satyr.CStr
open Satyr.Text
open Satyr.Frames
open Satyr.Abrt (Dir)
open Satyr.Report (ReportType UReport Stacktrace)

/-- Memory `m` is memory `b` with the report `r` at `p` in addition; it has no stack trace yet. `n` is enough to free it. -/
def Stands (b m : Mem) (p : Ptr) (r : UReport) (n : Nat) : Prop :=
  ∃ f, Holds m ((reportPart r none none 0).chain .report 0) true p f ∧ Adds b m f ∧ r.stacktrace = none ∧ r.auth = [] ∧ r.packages.length + 2 < n

theorem Stands.draft {b m p r n} (h : Stands b m p r n) : Draft b m p r := by
  obtain ⟨f, h1, h2, _, h4, _⟩ := h
  exact .of h4 h1 h2

/-- C155: up to the stack trace the report is read as in C154. If there is none, that is the result; else the rest is reading its stack
trace. -/
theorem C155_report_partial (A : Allocator) {qsort} (hq : IsQsort qsort) (core) {n : Nat} {d : Dir} (errno : Nat) (m : Mem) (e : Ptr) (hn : 1 ≤ n)
    (hp : PackageFiles d) (hd : ∀ t, d.contents c!"dso_list" = some t → (∃ l, Rpm.parseDsoList t = .ok l) ∧ t.length + 3 ≤ n)
    (hi : ∀ t, d.contents c!"interpreter" = some t → Rpm.parseNevra t ≠ .failDangling) (name version : Str) :
    reportDir A qsort core n d errno m e = .abort ∨ ∃ k ts x m₁ e', ReportIn name version d errno k ts x ∧ Left m e k ts m₁ e' ∧
      match x with
      | none => reportDir A qsort core n d errno m e = .ok (0, m₁, e')
      | some r => ∃ p m', Stands m₁ m' p r (n + 8) ∧ reportDir A qsort core n d errno m e = stackTrace A core (n + 8) d r.type.code p m' e' := by
  unfold reportDir
  rcases C154_report_partial A hq errno m e hn hp hd hi name version with a | ⟨k, ts, x, m₁, e', h1, h2, h3⟩
  · rw [a]; exact .inl rfl
  refine .inr ⟨k, ts, x, m₁, e', h1, h2, ?_⟩
  cases x with
  | none => rw [show _ = _ from h3]; rfl
  | some r =>
    obtain ⟨p, m', f, a, k1, k2⟩ := h3
    have hlen : r.packages.length ≤ n + 1 ∧ r.stacktrace = none ∧ r.auth = [] := by
      cases h1 with
      | report _ _ g1 g2 _ g3 _ =>
        have := libraries_length g2 (own_plain g1).1 (own_plain g1).2 hn fun t ht => (hd t ht).2
        have := interpreter_length g3
        exact ⟨by dsimp only; omega, rfl, rfl⟩
    refine ⟨p, m', ⟨f, k1, k2, hlen.2.1, hlen.2.2, by omega⟩, ?_⟩
    have h0 : p ≠ 0 := k1.ne (by simp [Part.chain])
    rw [a, bind_ok]
    obtain ⟨x, fs, fa, fb, fc, g0, g1, g2, g3, _⟩ := Draft.of hlen.2.2 k1 k2
    dsimp only
    rw [if_neg h0, readRecord, g1]
    dsimp only
    rw [bind_ok, g3]
    rfl

/-! ## Stack traces -/

/-- C155: without the file `backtrace` the report is freed, and the message is all that is added. This is so for Python, Java and Ruby. -/
theorem C155_no_file (A : Allocator) (core) {n : Nat} {d : Dir} {b m p r} (e : Ptr) (h : Stands b m p r n) (hd : d.contents c!"backtrace" = none) {ty : ReportType}
    (ht : ty ∈ [ReportType.python, .java, .ruby]) : Gained (fun _ g => g = []) none b e p r (stackTrace A core n d ty.code p m e) := by
  obtain ⟨_, _, _, h3, _, h5⟩ := id h
  have key := fun parse => traceFile_missing A parse e h.draft h3 h5 hd
  simp only [List.mem_cons, List.not_mem_nil, or_false] at ht
  rcases ht with rfl | rfl | rfl
  · exact key _
  · exact key _
  · exact key _

/-- C155, Java: nothing is lost if the stack trace can be read; else the frames that had been read are. -/
theorem C155_java (A : Allocator) (core) {n : Nat} {d : Dir} {b m p r} (e : Ptr) (h : Stands b m p r n) {s : Str} (hd : d.contents c!"backtrace" = some s) :
    ∃ v, Java.parseThread s = .ok v ∧ match v with
    | some (t, _) => Gained (fun _ g => g = []) (some (.java ⟨[t]⟩)) b e p r (stackTrace A core n d ReportType.java.code p m e)
    | none => ∃ lost, Java.lostFrames s = .ok lost ∧ Gained (fun m g => Keeps m lost g) none b e p r (stackTrace A core n d ReportType.java.code p m e) := by
  obtain ⟨_, _, _, h3, _, h5⟩ := id h
  obtain ⟨v, hv⟩ := Java.C56_java_trace s
  refine ⟨v, hv, ?_⟩
  cases v with
  | some x =>
    obtain ⟨t, rest⟩ := x
    refine traceFile_spec A e h.draft h3 h5 hd (fun h _ => h) fun m => ?_
    obtain ⟨v', hv', k⟩ := C149_java A s m .unset
    rw [hv] at hv'; cases hv'
    rcases k with a | ⟨p, m', f, a, _, k1, k2⟩
    · exact .inl a
    · exact .inr ⟨m, [], .refl m, rfl, p, rest, m', f, _, a, k1, k2⟩
  | none =>
    obtain ⟨v', hv', k⟩ := C149_java A s m .unset
    rw [hv] at hv'; cases hv'
    obtain ⟨lost, hl, _⟩ := k
    refine ⟨lost, hl, traceFile_spec A e h.draft h3 h5 hd (fun h hm => h.congr hm) fun m => ?_⟩
    obtain ⟨v', hv', k⟩ := C149_java A s m .unset
    rw [hv] at hv'; cases hv'
    obtain ⟨lost', hl', k⟩ := k
    rw [hl] at hl'; cases hl'
    rcases k with a | ⟨msg, m', f, a, _, k1, k2⟩
    · exact .inl a
    · exact .inr ⟨m', f, k2, k1, [], _, a, fun q hq => by cases hq⟩

/-- C155, Ruby: nothing is lost if the stack trace can be read; else the message of the location is, and if there is no frame at the
beginning also the message about it. -/
theorem C155_ruby (A : Allocator) (core) {n : Nat} {d : Dir} {b m p r} (e : Ptr) (h : Stands b m p r n) {s : Str} (hd : d.contents c!"backtrace" = some s) :
    (∃ t rest, Ruby.parse s = .ok (some (t, rest)) ∧
      Gained (fun _ g => g = []) (some (.ruby t)) b e p r (stackTrace A core n d ReportType.ruby.code p m e)) ∨
    (∃ l msg, Ruby.parseFrameL s Loc.init = .ok (.inl (l, msg)) ∧ Gained (fun m g => AllTexts m [msg, c!"Topmost stacktrace frame not found: " ++ msg] g)
      none b e p r (stackTrace A core n d ReportType.ruby.code p m e)) ∨
    (∃ l msg, (∀ x, Ruby.parseFrameL s Loc.init ≠ .ok (.inl x)) ∧ Ruby.parseL s Loc.init = .ok (.inl (l, msg)) ∧
      Gained (fun m g => AllTexts m [msg] g) none b e p r (stackTrace A core n d ReportType.ruby.code p m e)) := by
  obtain ⟨_, _, _, h3, _, h5⟩ := id h
  by_cases hf : ∃ l msg, Ruby.parseFrameL s Loc.init = .ok (.inl (l, msg))
  · obtain ⟨l, msg, hf⟩ := hf
    refine .inr (.inl ⟨l, msg, hf, traceFile_spec A e h.draft h3 h5 hd (fun h hm => h.congr hm) fun m => ?_⟩)
    rw [rubyParse]
    rcases rubyTrace_top A m hf with a | ⟨m₁, st, k1, a, k2⟩
    · rw [a]; exact .inl rfl
    obtain ⟨q, hq0, hq, rfl⟩ := k1.get
    obtain ⟨w, hw, hw0, rfl⟩ := k2
    rw [a, bind_ok]
    obtain ⟨w, rfl⟩ : ∃ n, w = n + 1 := ⟨w - 1, by revert hw0; cases w <;> simp⟩
    have hne : q ≠ w + 1 := fun e => by rw [e, set_eq] at hw; cases hw
    have hA : Adds m ((m.set q (some (.text msg))).set (w + 1) (some (.text (c!"Topmost stacktrace frame not found: " ++ msg)))) ([q] ++ [w + 1]) :=
      (Holding.adds ⟨hq0, hq, rfl⟩).trans (Holding.adds ⟨hw0, hw, rfl⟩)
    refine .inr ⟨_, _, hA, ?_, _, _, rfl, fun q hq => ?_⟩
    · exact .cons ⟨hq0, by rw [set_ne _ _ hne, set_eq]⟩ (.cons ⟨hw0, set_eq _ _ _⟩ .nil)
    · cases hq
      exact ⟨by simp, _, set_eq _ _ _⟩
  · have hf' : ∀ x, Ruby.parseFrameL s Loc.init ≠ .ok (.inl x) := fun x hx => hf ⟨x.1, x.2, hx⟩
    obtain ⟨v, hv, hp⟩ := Ruby.parseL_fine s Loc.init
    cases v with
    | inl x =>
      obtain ⟨l, msg⟩ := x
      refine .inr (.inr ⟨l, msg, hf', hv, traceFile_spec A e h.draft h3 h5 hd (fun h hm => h.congr hm) fun m => ?_⟩)
      rw [rubyParse]
      rcases rubyTrace_spec A m hv hf' with a | ⟨st, a, k2⟩
      · rw [a]; exact .inl rfl
      obtain ⟨w, hw, hw0, rfl⟩ := k2
      rw [a, bind_ok]
      obtain ⟨w, rfl⟩ : ∃ n, w = n + 1 := ⟨w - 1, by revert hw0; cases w <;> simp⟩
      refine .inr ⟨_, _, Holding.adds ⟨hw0, hw, rfl⟩, .cons ⟨hw0, set_eq _ _ _⟩ .nil, _, _, rfl, fun q hq => ?_⟩
      cases hq
      exact ⟨by simp, _, set_eq _ _ _⟩
    | inr x =>
      obtain ⟨t, rest⟩ := x
      refine .inl ⟨t, rest, hp, traceFile_spec A e h.draft h3 h5 hd (fun h _ => h) fun m => ?_⟩
      rw [rubyParse]
      rcases rubyTrace_spec A m hv hf' with a | ⟨p, m', f, a, k1, k2⟩
      · rw [a]; exact .inl rfl
      rw [a, bind_ok]
      exact .inr ⟨m, [], .refl m, rfl, p, rest, m', f, _, rfl, k1, k2⟩

/-- C155, the negation for Python: whenever the stack trace can be read, a text is lost that nothing points to. -/
theorem C155_not_python (A : Allocator) (core) {n : Nat} {d : Dir} {b m p r} (e : Ptr) (h : Stands b m p r n) {s rest : Str} {t : PythonTrace}
    (hd : d.contents c!"backtrace" = some s) (hs : Python.parse s = .ok (some (t, rest))) :
    Gained (fun m g => ∃ msg, AllTexts m [msg] g) (some (.python t)) b e p r (stackTrace A core n d ReportType.python.code p m e) := by
  obtain ⟨_, _, _, h3, _, h5⟩ := id h
  refine traceFile_spec A e h.draft h3 h5 hd (fun ⟨msg, h⟩ hm => ⟨msg, h.congr hm⟩) fun m => ?_
  rcases C147_not_python A s rest t m .unset hs with a | ⟨q, msg, hq0, hq, a | ⟨p, m', f, a, k1, k2⟩⟩
  · exact .inl a
  · exact .inl a
  · exact .inr ⟨_, _, Holding.adds ⟨hq0, hq, rfl⟩, ⟨msg, .cons ⟨hq0, set_eq _ _ _⟩ .nil⟩, p, rest, m', f, _, a, k1, k2⟩

/-- C155, Python, if there is no stack trace: nothing is lost if there is no header; else one text is. -/
theorem C155_python_none (A : Allocator) (core) {n : Nat} {d : Dir} {b m p r} (e : Ptr) (h : Stands b m p r n) {s : Str}
    (hd : d.contents c!"backtrace" = some s) (hs : Python.parse s = .ok none) :
    (Python.start s = .ok none ∧ Gained (fun _ g => g = []) none b e p r (stackTrace A core n d ReportType.python.code p m e)) ∨
    (∃ u, Python.start s = .ok (some u)) ∧
      Gained (fun m g => ∃ msg, AllTexts m [msg] g) none b e p r (stackTrace A core n d ReportType.python.code p m e) := by
  obtain ⟨_, _, _, h3, _, h5⟩ := id h
  obtain ⟨v, hv, hr⟩ := parseL_of hs
  cases v with
  | inr v => cases hr
  | inl v =>
    obtain ⟨l, msg⟩ := v
    obtain ⟨st, h1, _⟩ := bind_ok_iff.1 (show Python.parseL s = _ from hv)
    cases st with
    | inl x =>
      refine .inl ⟨start_of h1, traceFile_spec A e h.draft h3 h5 hd (fun h _ => h) fun m => ?_⟩
      rcases pythonTrace_spec A m .unset hv with a | ⟨q, k1, k2, a, t, _, _, _, _, k3, _⟩ | ⟨a, _⟩ | ⟨m', w, a, _, t, _, _, _, _, k3, _⟩
      · exact .inl a
      · rw [h1] at k3; cases k3
      · exact .inr ⟨m, [], .refl m, rfl, _, _, a, fun q hq => by cases hq⟩
      · rw [h1] at k3; cases k3
    | inr x =>
      refine .inr ⟨⟨_, start_of h1⟩, traceFile_spec A e h.draft h3 h5 hd (fun ⟨msg, h⟩ hm => ⟨msg, h.congr hm⟩) fun m => ?_⟩
      rcases pythonTrace_spec A m .unset hv with a | ⟨q, k1, k2, a, _⟩ | ⟨_, y, k3⟩ | ⟨m', w, a, k1, _⟩
      · exact .inl a
      · refine .inr ⟨_, _, Holding.adds ⟨k2, k1, rfl⟩, ⟨msg, .cons ⟨k2, set_eq _ _ _⟩ .nil⟩, _, _, a, fun q hq => ?_⟩
        cases hq
        exact ⟨by simp, _, set_eq _ _ _⟩
      · rw [h1] at k3; cases k3
      · obtain ⟨q, q0, q1, rfl⟩ := k1.get
        exact .inr ⟨_, _, Holding.adds ⟨q0, q1, rfl⟩, ⟨w, .cons ⟨q0, set_eq _ _ _⟩ .nil⟩, _, _, a, fun q hq => by cases hq⟩

/-- C155, kernel oopses: the texts lost are those of C148. Without the file `kernel` nothing is lost. -/
theorem C155_oops (A : Allocator) (core) {n : Nat} {d : Dir} {b m p r} (e : Ptr) (h : Stands b m p r n) : match d.contents c!"kernel" with
    | none => Gained (fun _ g => g = []) none b e p r (stackTrace A core n d ReportType.kerneloops.code p m e)
    | some v => ∀ s, d.contents c!"backtrace" = some s → ∃ k rest lost, Text.Koops.parseTrace s = .ok (k, rest) ∧ Koops.lostTexts s = .ok lost ∧
      Gained (fun m g => AllTexts m lost g) (some (.koops { k with version := some v })) b e p r (stackTrace A core n d ReportType.kerneloops.code p m e) := by
  obtain ⟨_, _, _, h3, _, h5⟩ := id h
  cases hv : d.contents c!"kernel" with
  | none => exact oopsFile_kernel A e h.draft h3 h5 hv
  | some v => exact fun s hs => oopsFile_spec A e h.draft h3 hv hs

/-- C155, the negation for kernel oopses: if there is a file `kernel`, but no file `backtrace`, the contents of the first are lost. -/
theorem C155_not_kernel (A : Allocator) (core) {n : Nat} {d : Dir} {b m p r} (e : Ptr) (h : Stands b m p r n) {v : Str}
    (hv : d.contents c!"kernel" = some v) (hs : d.contents c!"backtrace" = none) :
    Gained (fun m g => AllTexts m [v] g) none b e p r (stackTrace A core n d ReportType.kerneloops.code p m e) := by
  obtain ⟨_, _, _, h3, _, h5⟩ := id h
  exact oopsFile_lost A e h.draft h3 h5 hv hs

/-! ## Non-vacuity -/

/-- The type of the stack trace, the message, and the addresses in use. -/
def seen155 (l : List (Str × Str)) : Option (Option Kind × Ptr × List Ptr) :=
  match reportDir firstFree insertionSort (fun _ _ _ => .ub) 99 (filesOf (l ++ complete154)) 0 (fun _ => none) 0 with
  | .ok (p, m, e) => some (match m p with
      | some (.record r) => (match m r.c with
        | some (.record t) => some t.kind
        | _ => none)
      | _ => none, e, (List.range 60).filter fun x => (m x).isSome)
  | _ => none

set_option maxRecDepth 40000 in
example : seen155 [] =
    some (none, 0, [1, 2, 3, 4, 5, 6, 7, 8, 9, 10, 11, 12, 13, 15, 16, 17, 18, 19, 20, 21, 22, 23]) := by decide +kernel
-- A Java stack trace, and none.
set_option maxRecDepth 40000 in
example : seen155 [(c!"type", c!"Java"), (c!"backtrace", c!"Exception in thread \"main\" a.B: c\n\tat a.B.f(B.java:1)\n")] =
    some (some .javaTrace, 0, [1, 2, 3, 4, 5, 6, 7, 8, 9, 10, 11, 12, 13, 14, 15, 16, 17, 18, 19, 20, 21, 22, 23, 25, 26, 27, 28, 29, 30, 31, 32]) := by decide +kernel
set_option maxRecDepth 40000 in
example : seen155 [(c!"type", c!"Java")] =
    some (none, 24, [24]) := by decide +kernel
-- A Java stack trace that cannot be read: its first frames are lost.
set_option maxRecDepth 40000 in
example : seen155 [(c!"type", c!"Java"), (c!"backtrace", brokenJava)] =
    some (none, 14, [14, 29, 30, 31, 32, 33, 34]) := by decide +kernel
-- A Python stack trace, and two texts that are none.
set_option maxRecDepth 40000 in
example : seen155 [(c!"type", c!"Python"), (c!"backtrace", python147)] =
    some (some .pythonTrace, 0, [1, 2, 3, 4, 5, 6, 7, 8, 9, 10, 11, 12, 13, 14, 15, 16, 17, 18, 19, 20, 21, 22, 23, 25, 26, 27, 28, 29, 30, 31, 32, 33, 34]) := by decide +kernel
set_option maxRecDepth 40000 in
example : seen155 [(c!"type", c!"Python"), (c!"backtrace", c!"Traceback (most recent call last):\nx\n")] =
    some (none, 14, [14, 25]) := by decide +kernel
set_option maxRecDepth 40000 in
example : seen155 [(c!"type", c!"Python"), (c!"backtrace", c!"x")] =
    some (none, 14, [14]) := by decide +kernel
-- A Ruby stack trace, and a text that is not one: two texts are lost, at 25 and 27.
set_option maxRecDepth 40000 in
example : seen155 [(c!"type", c!"Ruby"), (c!"backtrace", c!"a.rb:1:in `f': m (E)\n\tfrom a.rb:2:in `g'\n")] =
    some (some .rubyTrace, 0, [1, 2, 3, 4, 5, 6, 7, 8, 9, 10, 11, 12, 13, 14, 15, 16, 17, 18, 19, 20, 21, 22, 23, 25, 26, 27, 28, 29, 30, 31]) := by decide +kernel
set_option maxRecDepth 40000 in
example : seen155 [(c!"type", c!"Ruby"), (c!"backtrace", c!"x")] =
    some (none, 14, [14, 25, 27]) := by decide +kernel
-- Kernel oopses: with both files, without the second, and without the first.
set_option maxRecDepth 40000 in
example : seen155 [(c!"type", c!"Kerneloops"), (c!"kernel", c!"6.1"), (c!"backtrace", c!"<IRQ>\n<NMI>\n")] =
    some (some .koopsTrace, 0, [1, 2, 3, 4, 5, 6, 7, 8, 9, 10, 11, 12, 13, 14, 15, 16, 17, 18, 19, 20, 21, 22, 23, 24, 26, 27, 28]) := by decide +kernel
set_option maxRecDepth 40000 in
example : seen155 [(c!"type", c!"Kerneloops"), (c!"kernel", c!"6.1")] =
    some (none, 25, [24, 25]) := by decide +kernel
set_option maxRecDepth 40000 in
example : seen155 [(c!"type", c!"Kerneloops"), (c!"backtrace", c!"x")] =
    some (none, 24, [24]) := by decide +kernel

end Satyr.Heap
