import Verif.Heap.CoreDirProps
/-!
# A whole problem directory: reading the report and freeing it

C157: freeing the report of a problem directory.
-/
namespace Satyr.Heap
open Satyr.CStr
open Satyr.Text
open Satyr.Frames
open Satyr.Rpm (Package)
open Satyr.Abrt (Dir)
open Satyr.Report (ReportType UReport Stacktrace)

/-! ## Types of structures -/

theorem chains_typed {α : Type} {k : Kind} (f : α → Chain) (h : ∀ x, (f x).Typed [k]) : ∀ l : List α, (chainsOf (l.map f)).Typed [k]
  | [] => trivial
  | x :: l => typed_append (h x) (chains_typed f h l)

theorem coreFrame_typed (f : Normalize.CoreFrame) : ((coreFramePart f).chain .coreFrame 0).Typed [.coreFrame] := ⟨by simp, rfl, trivial, rfl, rfl, rfl, rfl⟩
theorem pythonFrame_typed (f : PythonFrame) : ((pythonFramePart f).chain .pythonFrame 0).Typed [.pythonFrame] := ⟨by simp, rfl, trivial, rfl, rfl, rfl, rfl⟩
theorem rubyFrame_typed (f : RubyFrame) : ((rubyFramePart f).chain .rubyFrame 0).Typed [.rubyFrame] := ⟨by simp, rfl, trivial, rfl, rfl, rfl, rfl⟩
theorem jsFrame_typed (f : JsFrame) : ((jsFramePart f).chain .jsFrame 0).Typed [.jsFrame] := ⟨by simp, rfl, trivial, rfl, rfl, rfl, rfl⟩
theorem coreThread_typed (t : CoreThread) : ((coreThreadPart t).chain .coreThread 0).Typed [.coreThread] :=
  ⟨by simp, rfl, trivial, ⟨chains_typed _ coreFrame_typed _, fun h => by cases h⟩, rfl, rfl, rfl⟩
theorem javaThread_typed (t : JavaThread) : ((javaThreadPart t).chain .javaThread 0).Typed [.javaThread] :=
  ⟨by simp, rfl, trivial, ⟨calls_typed _, fun h => by cases h⟩, rfl, rfl, rfl⟩

theorem trace_typed (t : Stacktrace) (w : Ptr) : (traceChain w (some t)).Typed traces ∧ (traceChain w (some t)).Single := by
  refine ⟨?_, rfl⟩
  cases t with
  | core t =>
    exact ⟨show Kind.coreTrace ∈ traces by decide, rfl, trivial, ⟨chains_typed _ coreThread_typed _, fun h => by cases h⟩, rfl, rfl, rfl⟩
  | python t =>
    exact ⟨show Kind.pythonTrace ∈ traces by decide, rfl, trivial, ⟨chains_typed _ pythonFrame_typed _, fun h => by cases h⟩, rfl, rfl, rfl⟩
  | koops t =>
    refine ⟨show Kind.koopsTrace ∈ traces by decide, rfl, trivial, ⟨chains_typed _ koopsChain_typed _, fun h => by cases h⟩, ⟨?_, fun h => by cases h⟩, rfl, rfl⟩
    show Chain.Typed (match t.modules with
      | none => .nil
      | some l => moduleChain l) _
    cases t.modules with
    | none => trivial
    | some l => exact moduleChain_typed l
  | java t =>
    exact ⟨show Kind.javaTrace ∈ traces by decide, rfl, trivial, ⟨chains_typed _ javaThread_typed _, fun h => by cases h⟩, rfl, rfl, rfl⟩
  | ruby t =>
    exact ⟨show Kind.rubyTrace ∈ traces by decide, rfl, trivial, ⟨chains_typed _ rubyFrame_typed _, fun h => by cases h⟩, rfl, rfl, rfl⟩
  | js t =>
    exact ⟨show Kind.jsTrace ∈ traces by decide, rfl, trivial, ⟨chains_typed _ jsFrame_typed _, fun h => by cases h⟩, rfl, rfl, rfl⟩
  | gdb t =>
    exact ⟨show Kind.gdbTrace ∈ traces by decide, rfl, trivial, MemberOk.nil _ _, MemberOk.nil _ _, MemberOk.nil _ _, MemberOk.nil _ _⟩

theorem whole_report_typed {r : UReport} (hu : r.auth = []) (w : Ptr) : ((reportPart r none none w).chain .report 0).Typed [.report] := by
  obtain ⟨s1, s2, s3⟩ := systemChain_typed r.os
  obtain ⟨p1, p2⟩ := packageChain_spec r.packages
  refine ⟨by simp, rfl, trivial, ⟨s1, fun _ => s2⟩, ⟨p1, fun h => by cases h⟩, ?_, ?_⟩
  · show MemberOk _ _ (traceChain w r.stacktrace) (traceChain w r.stacktrace).Typed
    cases r.stacktrace with
    | none => exact MemberOk.nil _ _
    | some t => exact ⟨(trace_typed t w).1, fun _ => (trace_typed t w).2⟩
  · have he : (reportPart r none none w).e = .nil := by
      show entryChain r.auth = .nil
      rw [hu]; rfl
    rw [he]; exact MemberOk.nil _ _

/-! ## Specification -/

/-- The result of a function that makes a report, if memory was `m`: the program stops for lack of memory; or memory is `m` with the blocks
`g` and the report in addition, and freeing the report gives back all but `g`; or there is no report, and memory is `m` with `g` in
addition. -/
def Made (m : Mem) (o : Out (Ptr × Mem × Ptr)) : Prop :=
  o = .abort ∨ ∃ p m' e' b g, o = .ok (p, m', e') ∧ Adds m b g ∧
    if p = 0 then m' = b else ∃ r w f, Holds m' ((reportPart r none none w).chain .report 0) true p f ∧ Adds b m' f ∧ ∃ k, ∀ l, k ≤ l → free l p false m' = .ok b

/-- As `Made`, with a report and nothing else; the message is as before. -/
def NothingLost (m : Mem) (e : Ptr) (o : Out (Ptr × Mem × Ptr)) : Prop :=
  o = .abort ∨ ∃ p m', o = .ok (p, m', e) ∧ p ≠ 0 ∧ ∃ k, ∀ l, k ≤ l → free l p false m' = .ok m

/-! ## Freeing -/

theorem freed_report {b m : Mem} {p : Ptr} {r : UReport} {w : Ptr} {f : List Ptr} (hu : r.auth = [])
    (h : Holds m ((reportPart r none none w).chain .report 0) true p f) (hA : Adds b m f) : ∃ k, ∀ l, k ≤ l → free l p false m = .ok b :=
  ⟨((reportPart r none none w).chain .report 0).size + 1, fun l hl => by
    rw [Heap.free_spec _ l false p _ m [.report] (by omega) (whole_report_typed hu w) ⟨fun _ => ⟨rfl, rfl⟩, trivial⟩ (h.alone rfl) hA.nodup, hA.erase]⟩

/-- C157: freeing a report that C155 reads with its stack trace gives back all memory but what is lost. -/
theorem C157_freed {K t b e p r o} (h : Gained K (some t) b e p r o) (hu : r.auth = []) : o = .abort ∨ ∃ b₁ g m', Adds b b₁ g ∧ K b₁ g ∧
    o = .ok (p, m', e) ∧ ∃ k, ∀ l, k ≤ l → free l p false m' = .ok b₁ := by
  rcases h with h | ⟨b₁, g, h1, h2, m', f, h3, h4, h5⟩
  · exact .inl h
  · exact .inr ⟨b₁, g, m', h1, h2, h3, freed_report (r := { r with stacktrace := some t }) hu h4 h5⟩

theorem Gained.made {K t b e p r o} (h : Gained K t b e p r o) (hu : r.auth = []) : Made b o := by
  rcases h with h | ⟨b₁, g, h1, h2, h3⟩
  · exact .inl h
  cases t with
  | some t =>
    obtain ⟨m', f, h3, h4, h5⟩ := h3
    refine .inr ⟨p, m', e, b₁, g, h3, h1, ?_⟩
    rw [if_neg (h4.ne (by simp [Part.chain]))]
    exact ⟨_, _, f, h4, h5, freed_report (r := { r with stacktrace := some t }) hu h4 h5⟩
  | none =>
    obtain ⟨z, z0, z1, h3⟩ := h3
    refine .inr ⟨0, _, z, b₁.set z (some (.text [])), g ++ [z], h3, h1.trans (Holding.adds ⟨z0, z1, rfl⟩), ?_⟩
    rw [if_pos rfl]

theorem Gained.clean {t b e p r o} (h : Gained (fun _ g => g = []) (some t) b e p r o) (hu : r.auth = []) : NothingLost b e o := by
  rcases h with h | ⟨b₁, g, h1, rfl, m', f, h3, h4, h5⟩
  · exact .inl h
  have hb : b₁ = b := by rw [← h1.erase]; rfl
  subst hb
  exact .inr ⟨p, m', h3, h4.ne (by simp [Part.chain]), freed_report (r := { r with stacktrace := some t }) hu h4 h5⟩

theorem Made.after {m b : Mem} {g o} (h : Made b o) (hA : Adds m b g) : Made m o := by
  rcases h with h | ⟨p, m', e', b', g', h1, h2, h3⟩
  · exact .inl h
  · exact .inr ⟨p, m', e', b', g ++ g', h1, hA.trans h2, h3⟩

theorem Left.adds {m e k ts m' e'} (h : Left m e k ts m' e') : ∃ g, Adds m m' g := by
  induction h with
  | nil => exact ⟨[], .refl _⟩
  | told h1 h2 h3 ih => obtain ⟨g, ih⟩ := ih; exact ⟨_, ih.trans (Holding.adds ⟨h2, h3, rfl⟩)⟩
  | lost h1 h2 h3 ih => obtain ⟨g, ih⟩ := ih; exact ⟨_, ih.trans (Holding.adds ⟨h2, h3, rfl⟩)⟩

theorem Stands.made {b m p r n} (h : Stands b m p r n) (e : Ptr) : Made b (.ok (p, m, e)) := by
  obtain ⟨f, h1, h2, _, h4, _⟩ := h
  refine .inr ⟨p, m, e, b, [], rfl, .refl _, ?_⟩
  rw [if_neg (h1.ne (by simp [Part.chain]))]
  exact ⟨r, 0, f, h1, h2, freed_report h4 h1 h2⟩

theorem Stands.clean {b m p r n} (h : Stands b m p r n) (e : Ptr) : NothingLost b e (.ok (p, m, e)) := by
  obtain ⟨f, h1, h2, _, h4, _⟩ := h
  exact .inr ⟨p, m, rfl, h1.ne (by simp [Part.chain]), freed_report h4 h1 h2⟩

theorem Stands.auth {b m p r n} (h : Stands b m p r n) : r.auth = [] := by
  obtain ⟨f, _, _, _, h4, _⟩ := h
  exact h4

/-! ## The whole directory -/

theorem trace_made (A : Allocator) {n : Nat} {d : Dir} {b m p r} (e : Ptr) (h : Stands b m p r n) (ty : ReportType)
    (hy : ty = .python → ∀ s, d.contents c!"backtrace" = some s → ∃ v, Python.parse s = .ok v) :
    Made b (stackTrace A (coreFile A n d) n d ty.code p m e) := by
  have hu := h.auth
  have kinds : ∀ ty ∈ [ReportType.python, .java, .ruby], (ty = .python → ∀ s, d.contents c!"backtrace" = some s → ∃ v, Python.parse s = .ok v) →
      Made b (stackTrace A (coreFile A n d) n d ty.code p m e) := by
    intro ty ht hy
    cases hd : d.contents c!"backtrace" with
    | none => exact (C155_no_file A (coreFile A n d) e h hd ht).made hu
    | some s =>
      simp only [List.mem_cons, List.not_mem_nil, or_false] at ht
      rcases ht with rfl | rfl | rfl
      · obtain ⟨v, hv⟩ := hy rfl s hd
        cases v with
        | none =>
          rcases C155_python_none A (coreFile A n d) e h hd hv with ⟨_, k⟩ | ⟨_, k⟩
          · exact k.made hu
          · exact k.made hu
        | some x => exact (C155_not_python A (coreFile A n d) e h hd (t := x.1) (rest := x.2) hv).made hu
      · obtain ⟨v, hv, k⟩ := C155_java A (coreFile A n d) e h hd
        cases v with
        | some x => exact Gained.made k hu
        | none => obtain ⟨lost, _, k⟩ := k; exact k.made hu
      · rcases C155_ruby A (coreFile A n d) e h hd with ⟨_, _, _, k⟩ | ⟨_, _, _, k⟩ | ⟨_, _, _, _, k⟩
        · exact k.made hu
        · exact k.made hu
        · exact k.made hu
  cases ty with
  | core =>
    cases hd : d.contents c!"core_backtrace" with
    | none => exact (C156_no_file A e h hd).made hu
    | some s =>
      rcases C156_core A e h hd with a | k
      · exact .inl a
      cases ht : Abrt.coreFromText s with
      | some t =>
        rw [ht] at k
        obtain ⟨w, m', f, a, k1, k2, _, k3⟩ := k
        refine .inr ⟨p, m', e, b, [], a, .refl _, ?_⟩
        rw [if_neg (k1.ne (by simp [Part.chain]))]
        exact ⟨_, w, f, k1, k2, k3⟩
      | none =>
        rw [ht] at k
        obtain ⟨z, msg, z0, z1, a⟩ := k
        refine .inr ⟨0, _, z, b.set z (some (.text msg)), [z], a, Holding.adds ⟨z0, z1, rfl⟩, ?_⟩
        rw [if_pos rfl]
  | python => exact kinds _ (by simp) hy
  | java => exact kinds _ (by simp) hy
  | ruby => exact kinds _ (by simp) hy
  | kerneloops =>
    have k := C155_oops (d := d) A (coreFile A n d) e h
    cases hv : d.contents c!"kernel" with
    | none => rw [hv] at k; exact Gained.made k hu
    | some v =>
      rw [hv] at k
      cases hs : d.contents c!"backtrace" with
      | none => exact (C155_not_kernel A (coreFile A n d) e h hv hs).made hu
      | some s => obtain ⟨_, _, _, _, _, k⟩ := k s hs; exact k.made hu
  | _ => exact h.made e

/-- C157: reading the whole report of a problem directory, of any type. Other memory is not touched, and freeing the report gives back all
that belongs to it. What is not given back is the subject of C154, C155 and C156. -/
theorem C157_directory_partial (A : Allocator) {qsort} (hq : IsQsort qsort) {n : Nat} {d : Dir} (errno : Nat) (m : Mem) (e : Ptr) (hn : 1 ≤ n)
    (hp : PackageFiles d) (hd : ∀ t, d.contents c!"dso_list" = some t → (∃ l, Rpm.parseDsoList t = .ok l) ∧ t.length + 3 ≤ n)
    (hi : ∀ t, d.contents c!"interpreter" = some t → Rpm.parseNevra t ≠ .failDangling)
    (hy : ∀ t s, d.contents c!"type" = some t → Report.abrtType t = .python → d.contents c!"backtrace" = some s → ∃ v, Python.parse s = .ok v) :
    Made m (reportDir A qsort (coreFile A (n + 8) d) n d errno m e) := by
  rcases C155_report_partial A hq (coreFile A (n + 8) d) errno m e hn hp hd hi [] [] with a | ⟨k, ts, x, m₁, e', h1, h2, h3⟩
  · exact .inl a
  obtain ⟨g, hg⟩ := h2.adds
  cases x with
  | none =>
    refine .inr ⟨0, m₁, e', m₁, g, h3, hg, ?_⟩
    rw [if_pos rfl]
  | some r =>
    obtain ⟨p, m', h4, h5⟩ := h3
    rw [h5]
    refine (trace_made A e' h4 r.type fun h s hs => ?_).after hg
    cases h1 with
    | report ht => exact hy _ s ht h hs

/-- The stack trace for a report of type `ty` can be read, and reading it loses nothing; or there is none to read. -/
def TraceFine (d : Dir) (ty : ReportType) : Prop :=
  match ty with
  | .core => ∃ s t, d.contents c!"core_backtrace" = some s ∧ Abrt.coreFromText s = some t
  | .java => ∃ s x, d.contents c!"backtrace" = some s ∧ Java.parseThread s = .ok (some x)
  | .ruby => ∃ s x, d.contents c!"backtrace" = some s ∧ Ruby.parse s = .ok (some x)
  | .python | .kerneloops => False
  | _ => True

theorem parseL_failed {s : Str} {x : Ruby.Failure} (h : Ruby.parseFrameL s Loc.init = .ok (.inl x)) : ∃ y, Ruby.parseL s Loc.init = .ok (.inl y) := by
  unfold Ruby.parseL Ruby.headL
  rw [h]
  exact ⟨_, rfl⟩

theorem ruby_failed {s : Str} {x} (h : Ruby.parse s = .ok (some x)) (h' : ∃ y, Ruby.parseL s Loc.init = .ok (.inl y)) : False := by
  obtain ⟨y, h'⟩ := h'
  obtain ⟨v, hv, hp⟩ := Ruby.parseL_fine s Loc.init
  rw [h'] at hv; cases hv
  rw [h] at hp; cases hp

theorem trace_clean (A : Allocator) {n : Nat} {d : Dir} {b m p r} (e : Ptr) (h : Stands b m p r n) (ty : ReportType) (hf : TraceFine d ty) :
    NothingLost b e (stackTrace A (coreFile A n d) n d ty.code p m e) := by
  have hu := h.auth
  cases ty with
  | core =>
    obtain ⟨s, t, hd, ht⟩ := hf
    rcases C156_core A e h hd with a | k
    · exact .inl a
    rw [ht] at k
    obtain ⟨w, m', f, a, k1, k2, _, k3⟩ := k
    exact .inr ⟨p, m', a, k1.ne (by simp [Part.chain]), k3⟩
  | java =>
    obtain ⟨s, x, hd, ht⟩ := hf
    obtain ⟨v, hv, k⟩ := C155_java A (coreFile A n d) e h hd
    rw [ht] at hv; cases hv
    exact Gained.clean k hu
  | ruby =>
    obtain ⟨s, x, hd, ht⟩ := hf
    rcases C155_ruby A (coreFile A n d) e h hd with ⟨_, _, _, k⟩ | ⟨l, msg, k1, _⟩ | ⟨l, msg, _, k1, _⟩
    · exact k.clean hu
    · exact (ruby_failed ht (parseL_failed k1)).elim
    · exact (ruby_failed ht ⟨_, k1⟩).elim
  | python => exact hf.elim
  | kerneloops => exact hf.elim
  | _ => exact h.clean e

/-- C157, for a complete directory as in C154 whose stack trace can be read, of a core dump, a Java or Ruby program, or without a stack trace
of its own: nothing is lost. Reading the report and freeing it leaves memory as it was, and there is no message. -/
theorem C157_clean_partial (A : Allocator) {qsort} (hq : IsQsort qsort) {n : Nat} {d : Dir} (errno : Nat) (m : Mem) (e : Ptr) (hn : 1 ≤ n)
    {own : List Package} (ho : Own d own) (h0 : own ≠ [])
    (hd : ∀ t, d.contents c!"dso_list" = some t → (∃ l, Rpm.parseDsoList t = .ok l) ∧ t.length + 3 ≤ n)
    (hi : ∀ t, d.contents c!"interpreter" = some t → Rpm.parseNevra t ≠ .failDangling)
    (hd' : d.exist c!"dso_list" = true → d.contents c!"dso_list" ≠ none) (hi' : d.exist c!"interpreter" = true → d.contents c!"interpreter" ≠ none)
    {t i a v : Str} {c : Nat} (ht : d.contents c!"type" = some t) (hinfo : d.contents c!"os_info" = some i)
    (hi1 : ((Os.parseOsRelease i).map Prod.fst).Nodup) (hi2 : ∀ v, (c!"VERSION", v) ∈ Os.parseOsRelease i → strstrHas v c!"(Rawhide)" = false)
    (hi3 : (Os.parseEtcOsRelease i {}).1 = true) (ha : d.contents c!"architecture" = some a) (hv : d.contents c!"environ" = some v)
    (hc : Abrt.componentName d ≠ none) (hk : IsCount d errno c) (hf : TraceFine d (Report.abrtType t)) :
    NothingLost m e (reportDir A qsort (coreFile A (n + 8) d) n d errno m e) := by
  obtain ⟨s1, s2, s3⟩ := system_clean hinfo hi1 hi2 hi3 ha hv
  have hm : ∀ x, (d.exist x = true → d.contents x ≠ none) → messages d x = 0 := fun x h => by
    rw [messages, unread]
    split
    · rename_i h'; rw [if_neg (h h')]
    · rfl
  have hcm : componentMessages d = 0 := by rw [componentMessages, if_neg fun h => hc h.1]
  rcases C155_report_partial A hq (coreFile A (n + 8) d) errno m e hn (.inl ⟨own, ho⟩) hd hi [] [] with x | ⟨k, ts, x, m₁, e', h1, h2, h3⟩
  · exact .inl x
  have key : k = 0 ∧ ts = [] ∧ ∃ r, x = some r ∧ r.type = Report.abrtType t := by
    cases h1 with
    | noType h => rw [ht] at h; cases h
    | noSystem _ h => obtain ⟨o, ho⟩ := s3; exact absurd ho (h o)
    | noPackage _ _ _ h => rw [(own_unique ho ho h0).2] at h; cases h
    | noLibraries _ _ g1 g2 _ => exact absurd rfl (libraries_ne g2 (own_unique ho g1 h0).1)
    | noCount _ _ _ _ _ h => exact absurd hk (h c)
    | report h =>
      rw [ht] at h; cases h
      exact ⟨by rw [s2, hcm, hm _ hd', hm _ hi'], s1, _, rfl, rfl⟩
  obtain ⟨rfl, rfl, r, rfl, hty⟩ := key
  obtain ⟨rfl, rfl⟩ := h2.nothing
  obtain ⟨p, m', h4, h5⟩ := h3
  rw [h5]
  exact trace_clean A _ h4 r.type (hty ▸ hf)

/-! ## Non-vacuity -/

/-- The addresses in use after the report is read and freed. -/
def seen157 (l : List (Str × Str)) : Option (Ptr × List Ptr) :=
  match reportDir firstFree insertionSort (coreFile firstFree 107 (filesOf (l ++ complete154))) 99 (filesOf (l ++ complete154)) 0 (fun _ => none) 0 with
  | .ok (p, m, e) =>
    match free 300 p false m with
    | .ok m => some (e, (List.range 60).filter fun x => (m x).isSome)
    | _ => none
  | _ => none

set_option maxRecDepth 40000 in
example : seen157 [] =
    some (0, []) := by decide +kernel
set_option maxRecDepth 40000 in
example : seen157 [(c!"type", c!"CCpp"), (c!"core_backtrace", c!"{\"signal\": 11, \"stacktrace\": [{\"crash_thread\": true, \"frames\": [{\"address\": 1}]}]}")] =
    some (0, []) := by decide +kernel
set_option maxRecDepth 40000 in
example : seen157 [(c!"type", c!"Java"), (c!"backtrace", c!"Exception in thread \"main\" a.B: c\n\tat a.B.f(B.java:1)\n")] =
    some (0, []) := by decide +kernel
set_option maxRecDepth 40000 in
example : seen157 [(c!"type", c!"Ruby"), (c!"backtrace", c!"a.rb:1:in `f': m (E)\n\tfrom a.rb:2:in `g'\n")] =
    some (0, []) := by decide +kernel
-- Python and kernel oopses: a text is lost.
set_option maxRecDepth 40000 in
example : seen157 [(c!"type", c!"Python"), (c!"backtrace", python147)] =
    some (0, [33]) := by decide +kernel
set_option maxRecDepth 40000 in
example : seen157 [(c!"type", c!"Kerneloops"), (c!"kernel", c!"6.1"), (c!"backtrace", c!"<IRQ>\n<NMI>\n")] =
    some (0, [28]) := by decide +kernel

/-- A complete directory of a core dump. -/
def core157 : Dir := filesOf ([(c!"type", c!"CCpp"), (c!"core_backtrace", c!"{\"signal\": 11, \"stacktrace\": [{\"crash_thread\": true, \"frames\": [{\"address\": 1}]}]}")] ++ complete154)

-- The conditions of the theorem hold for it.
set_option maxRecDepth 40000 in
example (A : Allocator) (m : Mem) (e : Ptr) : NothingLost m e (reportDir A insertionSort (coreFile A (99 + 8) core157) 99 core157 0 m e) := by
  have hl : ∀ t, core157.contents c!"dso_list" = some t → t = c!"/lib/a.so a-1:3-4.i686 (V) 7\n" := fun t h => by
    have : core157.contents c!"dso_list" = some c!"/lib/a.so a-1:3-4.i686 (V) 7\n" := by decide +kernel
    rw [this] at h; cases h; rfl
  have hp : ∀ t, core157.contents c!"interpreter" = some t → t = c!"python-3-1.i686" := fun t h => by
    have : core157.contents c!"interpreter" = some c!"python-3-1.i686" := by decide +kernel
    rw [this] at h; cases h; rfl
  refine C157_clean_partial A insertionSort_spec 0 m e (by decide)
    (own := [{ name := some c!"b", epoch := 0, version := some c!"1", release := some c!"2", architecture := some c!"i686", role := .affected }])
    (t := c!"CCpp") (i := c!"ID=a\nVERSION_ID=1\nVERSION=1\n") (a := c!"i686") (v := c!"A=b\nDESKTOP_SESSION=x\n") (c := 3)
    ?_ (by simp) ?_ ?_ (by decide +kernel) (by decide +kernel) (by decide +kernel) (by decide +kernel) (by decide +kernel) ?_ (by decide +kernel) (by decide +kernel)
    (by decide +kernel) (by decide +kernel) ?_ ?_
  · rw [Own, if_pos (by decide +kernel)]
    exact ⟨_, ⟨c!"0", c!"b\n", c!"1", c!"2", c!"i686", by decide +kernel, by decide +kernel, by decide +kernel, by decide +kernel, by decide +kernel, by decide +kernel, rfl⟩,
      by decide +kernel⟩
  · intro t h
    rw [hl t h]
    have h' : (match Rpm.parseDsoList c!"/lib/a.so a-1:3-4.i686 (V) 7\n" with | .ok _ => true | _ => false) = true := by decide +kernel
    refine ⟨?_, by decide⟩
    split at h'
    · next l hl => exact ⟨l, hl⟩
    · cases h'
  · intro t h
    rw [hp t h]
    decide +kernel
  · have : ∀ x ∈ Os.parseOsRelease c!"ID=a\nVERSION_ID=1\nVERSION=1\n", x.1 = c!"VERSION" → strstrHas x.2 c!"(Rawhide)" = false := by decide +kernel
    exact fun v h => this _ h rfl
  · exact ⟨c!"3", by decide +kernel, ⟨[], [], c!"3", rfl, by simp, .inl rfl, by simp, by decide, by decide +kernel, by decide⟩, by simp⟩
  · have h' : (Abrt.coreFromText c!"{\"signal\": 11, \"stacktrace\": [{\"crash_thread\": true, \"frames\": [{\"address\": 1}]}]}").isSome = true := by decide +kernel
    rw [show Report.abrtType c!"CCpp" = .core by decide +kernel]
    obtain ⟨t, ht⟩ := Option.isSome_iff_exists.1 h'
    exact ⟨_, t, by decide +kernel, ht⟩

end Satyr.Heap
