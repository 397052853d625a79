import Verif.Heap.ReportDirLemmas
/-!
# The report of a problem directory in memory

C154: memory after the members of the report, except the stack trace, are read.
-/
namespace Satyr.Heap
open Satyr.CStr
open Satyr.Abrt (Dir IsOs CountText)
open Satyr.Os (OperatingSystem)
open Satyr.Rpm (Package)
open Satyr.Report (ReportType abrtType UReport)

/-! ## Specification -/

/-- The number of messages about the component: 1 if the directory has a file that says it and the file cannot be read. -/
def componentMessages (d : Dir) : Nat := if Abrt.componentName d = none ∧ (d.exist c!"package" ∨ d.exist c!"executable") then 1 else 0

/-- The number of occurrences. -/
def IsCount (d : Dir) (errno c : Nat) : Prop := ∃ s, d.contents c!"count" = some s ∧ CountText s c ∧ (c = 0 → errno = 0)

/-- What the directory says: the number of messages, the texts that are lost, and the report without its stack trace, if there is one. -/
inductive ReportIn (name version : Str) (d : Dir) (errno : Nat) : Nat → List Str → Option UReport → Prop
  | noType : d.contents c!"type" = none → ReportIn name version d errno 1 [] none
  | noSystem {t} : d.contents c!"type" = some t → (∀ o, ¬ IsOs d o) → ReportIn name version d errno (systemMessages d) (lostSystem d) none
  | noPackage {t o} : d.contents c!"type" = some t → IsOs d o → d.exist c!"package" = true → 0 < unreadMembers d →
      ReportIn name version d errno (systemMessages d + componentMessages d + unreadMembers d) (lostSystem d) none
  | noLibraries {t o own} : d.contents c!"type" = some t → IsOs d o → Own d own → Libraries d own [] → d.exist c!"dso_list" = true →
      ReportIn name version d errno (systemMessages d + componentMessages d + messages d c!"dso_list") (lostSystem d) none
  | noCount {t o own libs} : d.contents c!"type" = some t → IsOs d o → Own d own → Libraries d own libs → (libs = [] → d.exist c!"dso_list" = false) →
      (∀ c, ¬ IsCount d errno c) → ReportIn name version d errno
        (systemMessages d + componentMessages d + (messages d c!"dso_list" + messages d c!"interpreter") + 1) (lostSystem d) none
  | report {t o own libs ps c} : d.contents c!"type" = some t → IsOs d o → Own d own → Libraries d own libs →
      (libs = [] → d.exist c!"dso_list" = false) → Abrt.IsInterpreter d libs ps → IsCount d errno c → ReportIn name version d errno
        (systemMessages d + componentMessages d + (messages d c!"dso_list" + messages d c!"interpreter")) (lostSystem d)
        (some { reporterName := name, reporterVersion := version, type := abrtType t, os := some o, component := Abrt.componentName d,
                packages := ps, serial := c })

/-- The package of the program can be read, or only files of it with name, version, release or architecture are missing. -/
def PackageFiles (d : Dir) : Prop := (∃ own, Own d own) ∨ d.exist c!"package" = true ∧ 0 < unreadMembers d ∧
  ∃ s, d.contents c!"pkg_epoch" = some s ∧ (strtoull 10 s).value ≠ 2 ^ 64 - 1

/-- What the result is, and memory, if memory without the report is `m₁`. -/
def Delivers (m₁ : Mem) (e' : Ptr) (x : Option UReport) (o : Out (Ptr × Mem × Ptr)) : Prop :=
  match x with
  | none => o = .ok (0, m₁, e')
  | some r => ∃ p m' f, o = .ok (p, m', e') ∧ Holds m' ((reportPart r none none 0).chain .report 0) true p f ∧ Adds m₁ m' f

/-! ## Steps -/

theorem reportCount_spec (A : Allocator) {n : Nat} (d : Dir) (errno : Nat) {b m p r e k ts m₀ e₀} (hl : Left m₀ e₀ k ts b e) (h : Draft b m p r)
    (hs : r.stacktrace = none) (hn : r.packages.length ≤ n + 1) : reportCount A n d errno p m e = .abort ∨ ∃ m₁ e',
    ((∀ c, ¬ IsCount d errno c) ∧ Left m₀ e₀ (k + 1) ts m₁ e' ∧ reportCount A n d errno p m e = .ok (0, m₁, e')) ∨
    (∃ c m', IsCount d errno c ∧ Left m₀ e₀ k ts m₁ e' ∧ reportCount A n d errno p m e = .ok (p, m', e') ∧ Draft m₁ m' p { r with serial := c }) := by
  rw [reportCount]
  rcases C153_count A d errno m e with a | ⟨s, c, h1, h2, h3, a⟩ | ⟨h1, z, m', h2, a⟩
  · rw [a]; exact .inl rfl
  · rw [a, bind_ok]
    obtain ⟨m', a, hd⟩ := h.data (fun l => l.set 4 (c : Int)) { r with serial := c } rfl rfl rfl rfl rfl rfl
    dsimp only
    rw [a, bind_ok]
    exact .inr ⟨b, e, .inr ⟨c, m', ⟨s, h1, h2, h3⟩, hl, rfl, hd⟩⟩
  · rw [a, bind_ok]
    obtain ⟨b', g1, g2⟩ := h.left (h2.left e)
    dsimp only
    rw [g2.drop hs (by omega)]
    refine .inr ⟨b', z, .inl ⟨?_, by simpa using hl.trans g1, rfl⟩⟩
    rintro c ⟨s, k1, k2, k3⟩
    obtain ⟨k4, k5⟩ := h1 s c k1 k2
    exact k5 (k3 k4)

theorem reportPackages_spec (A : Allocator) {qsort} (hq : IsQsort qsort) {n : Nat} {d : Dir} (errno : Nat) (hn : 1 ≤ n) (hp : PackageFiles d)
    (hd : ∀ t, d.contents c!"dso_list" = some t → (∃ l, Rpm.parseDsoList t = .ok l) ∧ t.length + 3 ≤ n)
    (hi : ∀ t, d.contents c!"interpreter" = some t → Rpm.parseNevra t ≠ .failDangling)
    {t o b m p e m₀ e₀ name version} (ht : d.contents c!"type" = some t) (ho : IsOs d o)
    (hl : Left m₀ e₀ (systemMessages d + componentMessages d) (lostSystem d) b e)
    (h : Draft b m p { reporterName := name, reporterVersion := version, type := abrtType t, os := some o, component := Abrt.componentName d }) :
    reportPackages A qsort n d errno p m e = .abort ∨ ∃ k ts x m₁ e', ReportIn name version d errno k ts x ∧ Left m₀ e₀ k ts m₁ e' ∧
      Delivers m₁ e' x (reportPackages A qsort n d errno p m e) := by
  rw [reportPackages]
  rcases hp with ⟨own, hown⟩ | ⟨x1, x2, s, x3, x4⟩
  · rcases C152_packages_partial A hq m e hown hn hd hi with a | ⟨libs, m₁, e', hlib, h'⟩
    · rw [a]; exact .inl rfl
    have hlen := libraries_length hlib (own_plain hown).1 (own_plain hown).2 hn fun t ht => (hd t ht).2
    split at h'
    · next c =>
      obtain ⟨a, hm⟩ := h'
      rw [a, bind_ok]
      obtain ⟨b', g1, g2⟩ := h.left hm.left
      obtain ⟨m₂, a, g2⟩ := g2.nothing (fun x => { x with b := 0 }) fun x => .inr (.inr (.inl ⟨rfl, rfl⟩))
      dsimp only
      rw [a, bind_ok, if_pos rfl, g2.drop rfl (show 0 + 2 < n + 8 by omega)]
      rw [c.1] at hlib
      exact .inr ⟨_, _, _, b', e', .noLibraries ht ho hown hlib c.2, by simpa using hl.trans g1, rfl⟩
    · next c =>
      obtain ⟨ps, q, m', f, i1, a, hm, i2, i3⟩ := h'
      rw [a, bind_ok]
      obtain ⟨b', g1, g2⟩ := h.left hm.left
      obtain ⟨m₂, a, g2⟩ := g2.packages rfl i2 i3
      dsimp only
      rw [a, bind_ok, if_neg (by simp)]
      have c' : libs = [] → d.exist c!"dso_list" = false := fun h0 => by
        cases hx : d.exist c!"dso_list" with
        | false => rfl
        | true => exact absurd ⟨h0, hx⟩ c
      have hps := interpreter_length i1
      rcases reportCount_spec A (n := n) d errno (hl.trans g1) g2 rfl (show ps.length ≤ n + 1 by omega) with a | ⟨m₃, e₃, ⟨j1, j2, a⟩ | ⟨c, m₄, j1, j2, a, j3⟩⟩
      · exact .inl a
      · refine .inr ⟨_, _, _, m₃, e₃, .noCount ht ho hown hlib c' j1, by simpa using j2, a⟩
      · refine .inr ⟨_, _, _, m₃, e₃, .report ht ho hown hlib c' i1 j1, by simpa using j2, ?_⟩
        obtain ⟨f, y1, y2⟩ := j3.holds
        exact ⟨p, m₄, f, a, y1, y2⟩
  · rcases C152_members A qsort n m e x1 x3 x4 x2 with a | ⟨m', e', a, hm⟩
    · rw [a]; exact .inl rfl
    rw [a, bind_ok]
    obtain ⟨b', g1, g2⟩ := h.left hm.left
    obtain ⟨m₂, a, g2⟩ := g2.nothing (fun x => { x with b := 0 }) fun x => .inr (.inr (.inl ⟨rfl, rfl⟩))
    dsimp only
    rw [a, bind_ok, if_pos rfl, g2.drop rfl (show 0 + 2 < n + 8 by omega)]
    exact .inr ⟨_, _, _, b', e', .noPackage ht ho x1 x2, by simpa using hl.trans g1, rfl⟩

/-- C154: the epoch of the package can be read, the list of libraries can be parsed if it can be read, and the package of the interpreter
has no epoch that is not a number. Either the program stops for lack of memory; or the result is the report that the files say, without
its stack trace, or NULL if they say none. Memory is as before with the report in addition, the messages and the texts that are lost when
the operating system is read, and nothing else. For the types of reports that have no stack trace this is the result of the function.

What is missing from the property: it does not hold for the epoch, see `C154_not_epoch`. The stack trace is not read. -/
theorem C154_report_partial (A : Allocator) {qsort} (hq : IsQsort qsort) {n : Nat} {d : Dir} (errno : Nat) (m : Mem) (e : Ptr) (hn : 1 ≤ n)
    (hp : PackageFiles d) (hd : ∀ t, d.contents c!"dso_list" = some t → (∃ l, Rpm.parseDsoList t = .ok l) ∧ t.length + 3 ≤ n)
    (hi : ∀ t, d.contents c!"interpreter" = some t → Rpm.parseNevra t ≠ .failDangling) (name version : Str) :
    reportHead A qsort n d errno m e = .abort ∨ ∃ k ts x m₁ e', ReportIn name version d errno k ts x ∧ Left m e k ts m₁ e' ∧
      Delivers m₁ e' x (reportHead A qsort n d errno m e) := by
  rw [reportHead]
  rcases newReport_spec A m name version with a | ⟨p, m₁, a, h⟩
  · rw [a]; exact .inl rfl
  rw [a, bind_ok]
  dsimp only
  rcases fileText_spec A d c!"type" m₁ e with a | hf
  · rw [a]; exact .inl rfl
  cases ht : d.contents c!"type" with
  | none =>
    rw [ht] at hf
    obtain ⟨z, m₂, a, hz⟩ := hf
    rw [a, bind_ok]
    obtain ⟨b', g1, g2⟩ := h.left (hz.left e)
    dsimp only
    rw [if_pos rfl, g2.drop rfl (show 0 + 2 < n + 8 by omega)]
    exact .inr ⟨_, _, _, b', z, .noType ht, g1, rfl⟩
  | some t =>
    rw [ht] at hf
    obtain ⟨q, m₂, a, hz⟩ := hf
    rw [a, bind_ok]
    dsimp only
    rw [if_neg hz.1, readText_spec hz, bind_ok]
    obtain ⟨z0, z1, rfl⟩ := hz
    obtain ⟨k1, k2⟩ := h.cell (c := .text t) z1
    obtain ⟨m₃, a, k3⟩ := k2.data (fun l => l.set 1 (abrtType t).code)
      { reporterName := name, reporterVersion := version, type := abrtType t } rfl rfl rfl rfl rfl rfl
    rw [a, bind_ok]
    obtain ⟨m₄, a, k4⟩ : ∃ m₄, freeBlock m₃ q = .ok m₄ ∧ Draft m m₄ p { reporterName := name, reporterVersion := version, type := abrtType t } := k3.uncell z0 k1
    rw [a, bind_ok, reportSystem]
    rcases C153_system A d m₄ e with a | ⟨m₅, e₁, hl, ⟨o, s, m₆, f, o1, a, o2, o3⟩ | ⟨o1, a⟩⟩
    · rw [a]; exact .inl rfl
    · rw [a, bind_ok]
      obtain ⟨b', g1, g2⟩ := k4.left hl
      obtain ⟨m₇, a, g3⟩ := g2.system rfl o2 o3
      have hs0 : s ≠ 0 := by
        obtain ⟨x, fs, fa, fb, fc, fe, fn, g0, _⟩ := o2
        exact g0
      dsimp only
      rw [a, bind_ok, if_neg hs0]
      rcases C153_component A d m₇ e₁ with a | hc
      · rw [a]; exact .inl rfl
      cases hcn : Abrt.componentName d with
      | some c =>
        rw [hcn] at hc
        obtain ⟨y, m₈, hy, a⟩ := hc
        rw [a, bind_ok]
        obtain ⟨m₉, a, g4⟩ := g3.component rfl hy
        dsimp only
        rw [a, bind_ok]
        have h0 : componentMessages d = 0 := by rw [componentMessages, if_neg (by rw [hcn]; simp)]
        refine reportPackages_spec A hq errno hn hp hd hi ht o1 (by rw [h0]; exact g1) ?_
        rw [hcn]; exact g4
      | none =>
        rw [hcn] at hc
        dsimp only at hc
        split at hc
        · next c =>
          obtain ⟨y, m₈, hy, a⟩ := hc
          rw [a, bind_ok]
          obtain ⟨b'', g4, g5⟩ := g3.left (hy.left e₁)
          obtain ⟨m₉, a, g6⟩ := g5.nothing (fun x => { x with texts := x.texts.set 0 0 }) fun x => .inr (.inr (.inr ⟨rfl, rfl⟩))
          dsimp only
          rw [a, bind_ok]
          have h0 : componentMessages d = 1 := by rw [componentMessages, if_pos ⟨hcn, c⟩]
          refine reportPackages_spec A hq errno hn hp hd hi ht o1 (by rw [h0]; simpa using g1.trans g4) ?_
          rw [hcn]; exact g6
        · next c =>
          rw [hc, bind_ok]
          obtain ⟨m₉, a, g6⟩ := g3.nothing (fun x => { x with texts := x.texts.set 0 0 }) fun x => .inr (.inr (.inr ⟨rfl, rfl⟩))
          dsimp only
          rw [a, bind_ok]
          have h0 : componentMessages d = 0 := by rw [componentMessages, if_neg (fun h => c h.2)]
          refine reportPackages_spec A hq errno hn hp hd hi ht o1 (by rw [h0]; exact g1) ?_
          rw [hcn]; exact g6
    · rw [a, bind_ok]
      obtain ⟨b', g1, g2⟩ := k4.left hl
      obtain ⟨m₆, a, g3⟩ := g2.nothing (fun x => { x with a := 0 }) fun x => .inr (.inl ⟨rfl, rfl⟩)
      dsimp only
      rw [a, bind_ok, if_pos rfl, g3.drop rfl (show 0 + 2 < n + 8 by omega)]
      exact .inr ⟨_, _, _, b', e₁, .noSystem ht o1, g1, rfl⟩

/-! ## Freeing the report -/

/-- C154: freeing the report gives back all memory but the messages and the texts lost. -/
theorem C154_freed_partial (A : Allocator) {qsort} (hq : IsQsort qsort) {n : Nat} {d : Dir} (errno : Nat) (m : Mem) (e : Ptr) (hn : 1 ≤ n)
    (hp : PackageFiles d) (hd : ∀ t, d.contents c!"dso_list" = some t → (∃ l, Rpm.parseDsoList t = .ok l) ∧ t.length + 3 ≤ n)
    (hi : ∀ t, d.contents c!"interpreter" = some t → Rpm.parseNevra t ≠ .failDangling) :
    reportHead A qsort n d errno m e = .abort ∨ ∃ k ts m₁ p m' e', Left m e k ts m₁ e' ∧ reportHead A qsort n d errno m e = .ok (p, m', e') ∧
      if p = 0 then m' = m₁ else free (n + 8) p false m' = .ok m₁ := by
  rcases C154_report_partial A hq errno m e hn hp hd hi [] [] with a | ⟨k, ts, x, m₁, e', h1, h2, h3⟩
  · exact .inl a
  cases x with
  | none => exact .inr ⟨k, ts, m₁, 0, m₁, e', h2, h3, by rw [if_pos rfl]⟩
  | some r =>
    obtain ⟨p, m', f, a, k1, k2⟩ := h3
    have hlen : r.packages.length ≤ n + 1 ∧ r.stacktrace = none ∧ r.auth = [] := by
      cases h1 with
      | report _ _ g1 g2 _ g3 _ =>
        have := libraries_length g2 (own_plain g1).1 (own_plain g1).2 hn fun t ht => (hd t ht).2
        have := interpreter_length g3
        exact ⟨by dsimp only; omega, rfl, rfl⟩
    obtain ⟨t1, t2⟩ := report_typed hlen.2.1 hlen.2.2
    have h0 : p ≠ 0 := k1.ne (by simp [Part.chain])
    refine .inr ⟨k, ts, m₁, p, m', e', h2, a, ?_⟩
    rw [if_neg h0, Heap.free_spec _ (n + 8) false p f m' [.report] (by omega) t1 ⟨fun _ => ⟨rfl, rfl⟩, trivial⟩ (k1.alone rfl) k2.nodup, k2.erase]

/-! ## Nothing lost -/

theorem joined_ne {own dsos libs : List Package} (h : Joined own dsos libs) (h0 : own ≠ []) : libs ≠ [] := by
  unfold Joined at h
  split at h
  · rw [h]; exact h0
  · obtain ⟨s, hs, rfl⟩ := h
    have : s ≠ [] := fun e => by
      have := hs.1.length_eq
      rw [e] at this
      simp at this
      exact h0 (List.length_eq_zero_iff.1 (by omega))
    exact Abrt.uniq_ne_nil this

theorem libraries_ne {d : Dir} {own libs : List Package} (h : Libraries d own libs) (h0 : own ≠ []) : libs ≠ [] := by
  unfold Libraries at h
  split at h
  · obtain ⟨dsos, _, hj⟩ := h
    exact joined_ne hj h0
  · rw [h]; exact h0

theorem own_unique {d : Dir} {own own' : List Package} (h : Own d own) (h' : Own d own') (h0 : own ≠ []) : own' ≠ [] ∧ unreadMembers d = 0 := by
  unfold Own at h h'
  split at h
  · next c =>
    rw [if_pos c] at h'
    obtain ⟨y, _, rfl⟩ := h'
    obtain ⟨x, ⟨s, n, v, r, c, h1, h2, h3, h4, h5, h6, _⟩, _⟩ := h
    exact ⟨by simp, by simp [unreadMembers, unread, h2, h3, h4, h5]⟩
  · exact absurd h h0

/-- C154, for a complete directory of a packaged program: every file that is looked for can be read, the file `os_info` says name and
version, says nothing twice, and its version is not that of a development release, and there is a number of occurrences. Then nothing but
the report is left in memory and there is no message. -/
theorem C154_clean_partial (A : Allocator) {qsort} (hq : IsQsort qsort) {n : Nat} {d : Dir} (errno : Nat) (m : Mem) (e : Ptr) (hn : 1 ≤ n)
    {own : List Package} (ho : Own d own) (h0 : own ≠ [])
    (hd : ∀ t, d.contents c!"dso_list" = some t → (∃ l, Rpm.parseDsoList t = .ok l) ∧ t.length + 3 ≤ n)
    (hi : ∀ t, d.contents c!"interpreter" = some t → Rpm.parseNevra t ≠ .failDangling)
    (hd' : d.exist c!"dso_list" = true → d.contents c!"dso_list" ≠ none) (hi' : d.exist c!"interpreter" = true → d.contents c!"interpreter" ≠ none)
    {t i a v : Str} {c : Nat} (ht : d.contents c!"type" = some t) (hinfo : d.contents c!"os_info" = some i)
    (hi1 : ((Os.parseOsRelease i).map Prod.fst).Nodup) (hi2 : ∀ v, (c!"VERSION", v) ∈ Os.parseOsRelease i → strstrHas v c!"(Rawhide)" = false)
    (hi3 : (Os.parseEtcOsRelease i {}).1 = true) (ha : d.contents c!"architecture" = some a) (hv : d.contents c!"environ" = some v)
    (hc : Abrt.componentName d ≠ none) (hk : IsCount d errno c) (name version : Str) :
    reportHead A qsort n d errno m e = .abort ∨ ∃ r p m' f, ReportIn name version d errno 0 [] (some r) ∧
      reportHead A qsort n d errno m e = .ok (p, m', e) ∧ Holds m' ((reportPart r none none 0).chain .report 0) true p f ∧ Adds m m' f := by
  obtain ⟨s1, s2, s3⟩ := system_clean hinfo hi1 hi2 hi3 ha hv
  have hm : ∀ x, (d.exist x = true → d.contents x ≠ none) → messages d x = 0 := fun x h => by
    rw [messages, unread]
    split
    · rename_i h'; rw [if_neg (h h')]
    · rfl
  have hcm : componentMessages d = 0 := by rw [componentMessages, if_neg fun h => hc h.1]
  rcases C154_report_partial A hq errno m e hn (.inl ⟨own, ho⟩) hd hi name version with a | ⟨k, ts, x, m₁, e', h1, h2, h3⟩
  · exact .inl a
  have key : k = 0 ∧ ts = [] ∧ x ≠ none := by
    cases h1 with
    | noType h => rw [ht] at h; cases h
    | noSystem _ h => obtain ⟨o, ho⟩ := s3; exact absurd ho (h o)
    | noPackage _ _ _ h => rw [(own_unique ho ho h0).2] at h; cases h
    | noLibraries _ _ g1 g2 _ => exact absurd rfl (libraries_ne g2 (own_unique ho g1 h0).1)
    | noCount _ _ _ _ _ h => exact absurd hk (h c)
    | report => exact ⟨by rw [s2, hcm, hm _ hd', hm _ hi'], s1, by simp⟩
  obtain ⟨rfl, rfl, hx⟩ := key
  obtain ⟨rfl, rfl⟩ := h2.nothing
  cases x with
  | none => exact absurd rfl hx
  | some r =>
    obtain ⟨p, m', f, g1, g2, g3⟩ := h3
    exact .inr ⟨r, p, m', f, h1, g1, g2, g3⟩

/-! ## Non-vacuity -/

/-- A complete directory. -/
def complete154 : List (Str × Str) :=
  [(c!"type", c!"libreport"), (c!"component", c!"b"), (c!"count", c!"3")] ++ (packaged152 ++ installed153 c!"ID=a\nVERSION_ID=1\nVERSION=1\n" c!"")

/-- The numbers and the component of the report, the address of the message, and the addresses in use. -/
def seen154 (d : Dir) : Option (List Int × Option Str × Ptr × List Ptr) :=
  match reportHead firstFree insertionSort 99 d 0 (fun _ => none) 0 with
  | .ok (p, m, e) => match m p with
    | some (.record r) => some (r.data, (match m (r.texts.getD 0 0) with | some (.text t) => some t | _ => none), e,
        (List.range 60).filter fun x => (m x).isSome)
    | _ => some ([], none, e, (List.range 60).filter fun x => (m x).isSome)
  | _ => none

set_option maxRecDepth 40000 in
example : seen154 (filesOf complete154) =
    some ([2, 0, 0, 1, 3], some c!"b", 0, [1, 2, 3, 4, 5, 6, 7, 8, 9, 10, 11, 12, 13, 15, 16, 17, 18, 19, 20, 21, 22, 23]) := by decide +kernel

-- Without a file the report needs: the message is all that is left.
set_option maxRecDepth 40000 in
example : seen154 (filesOf (complete154.filter fun x => x.1 ≠ c!"type")) = some ([], none, 3, [3]) := by decide +kernel
set_option maxRecDepth 40000 in
example : seen154 (filesOf (complete154.filter fun x => x.1 ≠ c!"architecture")) = some ([], none, 4, [4]) := by decide +kernel
set_option maxRecDepth 40000 in
example : seen154 (filesOf (complete154.filter fun x => x.1 ≠ c!"count")) = some ([], none, 24, [24]) := by decide +kernel
set_option maxRecDepth 40000 in
example : seen154 (filesOf (complete154.filter fun x => x.1 ≠ c!"pkg_name")) = some ([], none, 10, [10]) := by decide +kernel

-- Without the component: the report and a message.
set_option maxRecDepth 40000 in
example : seen154 (filesOf (complete154.filter fun x => x.1 ≠ c!"component")) =
    some ([2, 0, 0, 1, 3], none, 8, [1, 2, 3, 4, 5, 6, 7, 8, 9, 10, 11, 12, 13, 15, 16, 17, 18, 19, 20, 21, 22, 23]) := by decide +kernel

/-- C154, the negation of the property without its condition: there is no file `pkg_epoch`. The report is not read, and what is left in
memory is not only the message, but also the block of a package. -/
theorem C154_not_epoch : ∃ d : Dir, (∀ x, d.exist x = true → d.contents x ≠ none) ∧ d.contents c!"pkg_epoch" = none ∧
    ∃ m' e q, reportHead firstFree insertionSort 99 d 0 (fun _ => none) 0 = .ok (0, m', e) ∧ q ≠ e ∧ m' q = some (newRecord .package) := by
  refine ⟨filesOf (complete154.filter fun x => x.1 ≠ c!"pkg_epoch"), ?_, by decide +kernel, ?_⟩
  · intro x h
    simpa [filesOf] using h
  · have h : (match reportHead firstFree insertionSort 99 (filesOf (complete154.filter fun x => x.1 ≠ c!"pkg_epoch")) 0 (fun _ => none) 0 with
        | .ok (p, m', e) => decide (p = 0 ∧ 7 ≠ e) && decide (m' 7 = some (newRecord .package)) | _ => false) = true := by decide +kernel
    split at h
    · next p m' e heq =>
      simp only [Bool.and_eq_true, decide_eq_true_eq] at h
      obtain ⟨⟨rfl, h1⟩, h2⟩ := h
      exact ⟨m', e, 7, heq, h1, h2⟩
    · cases h

end Satyr.Heap
