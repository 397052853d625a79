import Verif.Abrt.Props
import Verif.Rpm.Dso
import Verif.Rpm.Order
import Verif.Json.Core
import Verif.Text.Python
import Verif.Text.Ruby
import Verif.Text.Java
import Verif.Text.KoopsTrace
import Verif.Text.KoopsSafe
/-!
# Consequences: what stands in a directory stands in the report; failures; stack traces written and read
-/
namespace Satyr.Abrt
open Satyr.CStr Satyr.Frames Satyr.Report
open Satyr.Normalize (CoreFrame)

variable (qsort : (Rpm.Package → Rpm.Package → Int) → List Rpm.Package → List Rpm.Package)

/-! ## The desktop session -/

/-- C82: the value of the variable is found in an environment of one variable per line, if no line before mentions it. -/
theorem C82_desktop_partial (before after : List Str) (x : Str) (hx : '\n' ∉ x)
    (hb : ∀ l ∈ before, '\n' ∉ l ∧ ¬ ∃ a b, l = a ++ (c!"DESKTOP_SESSION=" ++ b)) :
    DesktopText (before.flatMap (· ++ ['\n']) ++ (c!"DESKTOP_SESSION=" ++ (x ++ '\n' :: after.flatMap (· ++ ['\n'])))) x := by
  refine ⟨before.flatMap (· ++ ['\n']), '\n' :: after.flatMap (· ++ ['\n']), rfl, ?_, hx, Or.inr ⟨_, rfl⟩, ?_⟩
  · cases before using List.reverseRecOn with
    | nil => exact Or.inl rfl
    | append_singleton ls l =>
      right
      exact ⟨ls.flatMap (· ++ ['\n']) ++ l, by simp⟩
  · generalize x ++ '\n' :: after.flatMap (· ++ ['\n']) = rest
    induction before with
    | nil => intro a' b' _; simp
    | cons l ls ih =>
      intro a' b' h
      obtain ⟨hl, hn⟩ := hb l (by simp)
      have ih := ih fun l' hl' => hb l' (by simp [hl'])
      rw [List.flatMap_cons, List.append_assoc, List.append_assoc] at h
      rw [List.append_eq_append_iff] at h
      rcases h with ⟨c, h1, h2⟩ | ⟨c, h1, h2⟩
      · -- the line ends before the mention
        rw [List.singleton_append] at h2
        cases c with
        | nil =>
          rw [List.nil_append] at h2
          exact absurd (congrArg List.head? h2) (by simp)
        | cons y c =>
          rw [List.cons_append] at h2
          injection h2 with h3 h4
          have := ih c b' h4
          rw [h1]
          simp only [List.flatMap_cons, List.length_append, List.length_cons, List.length_nil]
          omega
      · -- the mention begins in the line
        exfalso
        rw [List.append_eq_append_iff] at h2
        rcases h2 with ⟨e, h3, h4⟩ | ⟨e, h3, h4⟩
        · exact hn ⟨a', e, by rw [h1, h3]⟩
        · rw [List.singleton_append] at h4
          cases e with
          | nil =>
            rw [List.append_nil] at h3
            exact hn ⟨a', [], by rw [h1, ← h3, List.append_nil]⟩
          | cons y e =>
            rw [List.cons_append] at h4
            injection h4 with h5 h6
            have : '\n' ∈ c!"DESKTOP_SESSION=" := by rw [h3, h5]; simp
            revert this
            decide

/-- C82 does not hold if a variable before ends in the same name: the variable is not found. -/
theorem C82_not_prefix : desktopOf c!"X_DESKTOP_SESSION=a\nDESKTOP_SESSION=gnome\n" = none ∧
    desktopOf c!"DESKTOP_SESSION=gnome\nX_DESKTOP_SESSION=a\n" = some c!"gnome" := by decide +kernel

example : desktopOf c!"A=b\nDESKTOP_SESSION=gnome" = some c!"gnome" := by decide +kernel

/-! ## Packages -/

/-- C83: the epoch is the number in its file. -/
theorem C83_epoch (n : Nat) (hn : n < 2 ^ 32) (rest : Str) (hr : IsDec (peek rest) = false) :
    (strtoull 10 (natDec n ++ rest)).value = n ∧ (strtoull 10 (natDec n ++ rest)).value ≠ 2 ^ 64 - 1 ∧
    (strtoull 10 (natDec n ++ rest)).value % 2 ^ 32 = n := by
  obtain ⟨h1, h2, h3⟩ := natDec_spec n
  have hp : IsDec (peek (natDec n ++ rest)) = true := by
    rw [peek_append h2]
    cases e : natDec n with
    | nil => exact absurd e h2
    | cons c t => exact h1 c (by rw [e]; simp)
  have hd := digits10_val _ (List.contains_iff_mem.1 hp)
  have hb : (natDec n ++ rest).dropWhile isSpace = natDec n ++ rest := by
    cases e : natDec n ++ rest with
    | nil => rfl
    | cons c t =>
      rw [e] at hd
      rw [List.dropWhile_cons, if_neg]
      have : isSpace c = false := hd.2.2.1
      simp [this]
  have ha : Rpm.afterSign (natDec n ++ rest) = natDec n ++ rest := by
    unfold Rpm.afterSign
    rw [hb, if_neg]
    tauto
  have ht : (natDec n ++ rest).takeWhile IsDec = natDec n := (takeWhile_append_stop h1 hr).1
  have e : (strtoull 10 (natDec n ++ rest)).value = n := by
    rw [Rpm.strtoull10 _ (by rw [hb]; tauto), ha, ht, if_neg h2, h3, if_neg (by unfold ullMax; omega)]
  rw [e]
  exact ⟨rfl, by omega, by omega⟩

/-- C83 does not hold for larger numbers and for texts that are no numbers: they are accepted. -/
theorem C83_not_epoch : (strtoull 10 c!"4294967297").value % 2 ^ 32 = 1 ∧ (strtoull 10 c!"abc").value = 0 ∧
    (strtoull 10 c!"-3").value % 2 ^ 32 = 4294967293 := by decide +kernel

/-- C83: if epochs are below 2^31, the packages of the program and of its libraries are sorted, no two of them describe one package,
each package that was read is represented, and none is invented. -/
theorem C83_merged_partial (d : Dir) (own l libs : List Rpm.Package) (t : Str)
    (hq : Rpm.QsortResult Rpm.cmpNevra (own ++ l) (qsort Rpm.cmpNevra (own ++ l))) (hs : ∀ p ∈ own ++ l, Small p.epoch)
    (h1 : d.exist c!"dso_list" = true) (h2 : d.contents c!"dso_list" = some t) (h3 : Rpm.parseDsoList t = .ok l) (hl : l ≠ [])
    (h : IsLibraries qsort d own libs) :
    libs.Pairwise (fun p q => ¬ Rpm.Compatible p q) ∧ libs.Pairwise (fun p q => Rpm.cmpNevra p q ≤ 0) ∧
      (∀ p ∈ own ++ l, ∃ q ∈ libs, Rpm.Represents q p) ∧ (∀ q ∈ libs, ∃ p ∈ own ++ l, Rpm.identity q = Rpm.identity p) := by
  obtain ⟨r, h4, h5⟩ := Rpm.C36_sort_uniq_partial qsort (own ++ l) hq (by simp [hl]) hs
  unfold IsLibraries at h
  rw [h1, h2] at h
  obtain ⟨l', h6, ⟨rfl, -, -⟩ | ⟨-, -, s, h7, rfl⟩⟩ := h
  · rw [h3] at h6
    cases h6
    exact absurd rfl hl
  · rw [h3] at h6
    cases h6
    rw [h7] at h4
    cases h4
    exact h5

/-! ## Stack traces -/

/-- C80: the stack trace of a report of a Python problem has the frames and the exception of the printed traceback. -/
theorem C80_python {name version : Str} {errno : Nat} {d : Dir} {r : UReport} (h : IsReport qsort name version errno d r)
    {suffix : Str} (ht : d.contents c!"type" = some (c!"Python" ++ suffix))
    (pre : Str) (es : List Text.Python.Entry) (exc tail : Str) (hes : es ≠ []) (he : ∀ e ∈ es, e.WF)
    (hn : exc ≠ []) (hp : peek exc ∉ c!" ^~") (h1 : ':' ∉ exc) (h2 : '\n' ∉ exc) (h3 : tail = [] ∨ peek tail ∈ c!":\n")
    (hfirst : ∀ pre' rest', pre ++ Text.Python.header ++ (es.flatMap Text.Python.Entry.text ++ (exc ++ tail)) =
      pre' ++ Text.Python.header ++ rest' → pre.length ≤ pre'.length)
    (hb : d.contents c!"backtrace" = some (pre ++ Text.Python.header ++ (es.flatMap Text.Python.Entry.text ++ (exc ++ tail)))) :
    r.type = .python ∧ r.stacktrace = some (.python ⟨some exc, (es.map Text.Python.Entry.frame).reverse⟩) := by
  obtain ⟨t, h4, h5⟩ := h.type
  rw [ht] at h4
  cases h4
  have h6 : r.type = .python := h5.trans (C49_abrt_partial .python c!"Python" rfl (by decide) suffix)
  have h7 := h.stacktrace
  rw [h6] at h7
  obtain ⟨t, v, rest, h8, h9, h10⟩ := h7
  rw [hb] at h8
  cases h8
  rw [Text.Python.C52_read_partial pre es exc tail hes he hn hp h1 h2 h3 hfirst] at h9
  cases h9
  exact ⟨h6, h10⟩

/-- C80: the stack trace of a report of a Ruby problem has the frames and the exception class of the printed backtrace. -/
theorem C80_ruby {name version : Str} {errno : Nat} {d : Dir} {r : UReport} (h : IsReport qsort name version errno d r)
    {suffix : Str} (ht : d.contents c!"type" = some (c!"Ruby" ++ suffix))
    (first : Text.Ruby.Place) (message cls : Str) (rest : List Text.Ruby.Place) (hw : ∀ p ∈ first :: rest, p.WF) (hm : '\t' ∉ message)
    (hc : cls ≠ []) (hc1 : '(' ∉ cls) (hc2 : '\t' ∉ cls)
    (hb : d.contents c!"backtrace" = some (Text.Ruby.traceText first message cls rest)) :
    r.type = .ruby ∧ r.stacktrace = some (.ruby ⟨some cls, (first :: rest).map Text.Ruby.Place.frame⟩) := by
  obtain ⟨t, h4, h5⟩ := h.type
  rw [ht] at h4
  cases h4
  have h6 : r.type = .ruby := h5.trans (C49_abrt_partial .ruby c!"Ruby" rfl (by decide) suffix)
  have h7 := h.stacktrace
  rw [h6] at h7
  obtain ⟨t, v, rest, h8, h9, h10⟩ := h7
  rw [hb] at h8
  cases h8
  rw [Text.Ruby.C53_read_partial first message cls _ hw hm hc hc1 hc2] at h9
  cases h9
  exact ⟨h6, h10⟩

/-- C80: the stack trace of a report of a Java problem has one thread, with the exceptions and calls of the printed stack trace. -/
theorem C80_java {name version : Str} {errno : Nat} {d : Dir} {r : UReport} (h : IsReport qsort name version errno d r)
    {suffix : Str} (ht : d.contents c!"type" = some (c!"Java" ++ suffix))
    (thread : Option Str) (e : Text.Java.Exc) (l : List Text.Java.Exc) (hn : ∀ n, thread = some n → '"' ∉ n ∧ '\n' ∉ n)
    (hw : ∀ x ∈ e :: l, x.WF) (hb : d.contents c!"backtrace" = some (Text.Java.threadText thread e l)) :
    r.type = .java ∧ r.stacktrace = some (.java ⟨[⟨thread, (e :: l).reverse.flatMap Text.Java.Exc.frames⟩]⟩) := by
  obtain ⟨t, h4, h5⟩ := h.type
  rw [ht] at h4
  cases h4
  have h6 : r.type = .java := h5.trans (C49_abrt_partial .java c!"Java" rfl (by decide) suffix)
  have h7 := h.stacktrace
  rw [h6] at h7
  obtain ⟨t, v, rest, h8, h9, h10⟩ := h7
  rw [hb] at h8
  cases h8
  rw [Text.Java.C70_read_partial thread e l hn hw] at h9
  cases h9
  exact ⟨h6, h10⟩

/-- C80: the stack trace of a report of a kernel oops has the frames and modules of the oops, the version of the kernel and the
whole text. -/
theorem C80_koops {name version : Str} {errno : Nat} {d : Dir} {r : UReport} (h : IsReport qsort name version errno d r)
    {suffix kernel s : Str} {o : Text.Koops.Found} (ht : d.contents c!"type" = some (c!"Kerneloops" ++ suffix))
    (hk : d.contents c!"kernel" = some kernel) (hb : d.contents c!"backtrace" = some s) (h0 : '\x00' ∉ s)
    (hs : Text.Koops.TraceText false false none o s) :
    r.type = .kerneloops ∧ r.stacktrace = some (.koops { version := some kernel, taint := Koops.parseTaintFlags s {}, modules := o.modules,
                                                                    rawOops := some s, frames := o.ip.toList ++ o.frames, reason := some (s.takeWhile (· ≠ '\n')) }) := by
  obtain ⟨t, h4, h5⟩ := h.type
  rw [ht] at h4
  cases h4
  have h6 : r.type = .kerneloops := h5.trans (C49_abrt_partial .kerneloops c!"Kerneloops" rfl (by decide) suffix)
  have h7 := h.stacktrace
  rw [h6] at h7
  obtain ⟨k, t, v, rest, h8, h9, h10, h11⟩ := h7
  rw [hb] at h9
  cases h9
  rw [hk] at h8
  cases h8
  rw [Text.Koops.C75_read_partial h0 hs] at h10
  cases h10
  exact ⟨h6, h11⟩

/-! ## Safety -/

/-- The function runs to its end. -/
def Ends {α : Type} (x : M α) : Prop := ∀ m, ∃ r, x m = .ok r

theorem Ends.bind {α β : Type} {x : M α} {f : α → M β} (hx : Ends x) (hf : ∀ a, Ends (f a)) : Ends (x >>= f) := by
  intro m
  obtain ⟨⟨o, m1⟩, h⟩ := hx m
  show ∃ r, M.andThen x f m = .ok r
  unfold M.andThen
  rw [h, Out.bind_ok]
  cases o with
  | none => exact ⟨_, rfl⟩
  | some a => exact hf a m1

theorem Ends.ret {α : Type} (a : α) : Ends (M.ret a) := fun _ => ⟨_, rfl⟩
theorem Ends.fail {α : Type} : Ends (M.fail : M α) := fun _ => ⟨_, rfl⟩
theorem Ends.error {α : Type} : Ends (M.error : M α) := fun _ => ⟨_, rfl⟩
theorem Ends.lift {α : Type} {x : Out α} (h : Fine x) : Ends (M.lift x) := by
  obtain ⟨a, rfl⟩ := h
  exact fun _ => ⟨_, rfl⟩
theorem Ends.file (d : Dir) (n : Str) : Ends (Abrt.file d n) := by
  unfold Abrt.file
  cases d.contents n
  · exact .error
  · exact .ret _
theorem Ends.attempt {α : Type} {x : M α} (h : Ends x) : Ends x.attempt := by
  intro m
  obtain ⟨r, h⟩ := h m
  exact ⟨_, by unfold M.attempt; rw [h, Out.bind_ok]⟩
theorem Ends.ite {α : Type} {c : Prop} [Decidable c] {x y : M α} (hx : Ends x) (hy : Ends y) : Ends (if c then x else y) := by
  split
  · exact hx
  · exact hy

theorem parseDsoList_fine {t : Str} (h : Rpm.Safe t) : Fine (Rpm.parseDsoList t) := by
  obtain ⟨ls, last, rfl, h1, h2⟩ := lines_of t
  exact ⟨_, Rpm.C38_lines ls last h1 h2 h⟩

theorem ends_package (d : Dir) : Ends (package d) := by
  unfold package
  refine (Ends.file d _).bind fun e => Ends.ite .error ?_
  refine (Ends.file d _).attempt.bind fun n => (Ends.file d _).attempt.bind fun v => (Ends.file d _).attempt.bind fun r =>
    (Ends.file d _).attempt.bind fun a => ?_
  cases n <;> cases v <;> cases r <;> cases a <;> first | exact .ret _ | exact .fail

theorem ends_packages (d : Dir) (hq : ∀ l, (qsort Rpm.cmpNevra l).Perm l) (h1 : ∀ t, d.contents c!"dso_list" = some t → Rpm.Safe t)
    (h2 : ∀ t, d.contents c!"interpreter" = some t → Rpm.parseNevra t ≠ .failDangling) : Ends (packages qsort d) := by
  have hdso : ∀ own, Ends (dsoPackages qsort d own) := by
    intro own m
    unfold dsoPackages
    show ∃ r, M.andThen _ _ m = .ok r
    unfold Abrt.file M.andThen M.attempt
    cases e : d.contents c!"dso_list" with
    | none => exact ⟨_, rfl⟩
    | some t =>
      refine (Ends.lift (parseDsoList_fine (h1 t e))).bind (fun l => Ends.lift ?_) m
      unfold addDsos
      split
      · exact .ok _
      · next hl =>
        have : qsort Rpm.cmpNevra (own ++ l) ≠ [] := by
          intro h
          have := hq (own ++ l)
          rw [h] at this
          have := List.nil_perm.1 this
          simp at this
          exact hl this.2
        unfold Rpm.sort
        split
        · contradiction
        · exact ⟨_, rfl⟩
  have hint : ∀ libs, Ends (interpreterPackage d libs) := by
    intro libs m
    unfold interpreterPackage
    show ∃ r, M.andThen _ _ m = .ok r
    unfold Abrt.file M.andThen M.attempt
    cases e : d.contents c!"interpreter" with
    | none => exact ⟨_, rfl⟩
    | some t =>
      refine Ends.lift ?_ m
      unfold interpreter
      have := h2 t e
      cases e : Rpm.parseNevra t with
      | ok => exact ⟨_, rfl⟩
      | fail => exact ⟨_, rfl⟩
      | failDangling => exact absurd e this
  unfold packages
  refine Ends.bind ?_ fun own => Ends.bind ?_ fun libs => Ends.ite (hint libs) (.ret _)
  · unfold ownPackage
    exact .ite ((ends_package d).bind fun p => .ret _) (.ret _)
  · unfold libraryPackages
    exact .ite ((hdso own).bind fun ps => .ite .fail (.ret _)) (.ret _)

theorem ends_os (d : Dir) : Ends (operatingSystem d) := by
  unfold operatingSystem
  refine Ends.bind ?_ fun os => (Ends.file d _).bind fun a => Ends.bind (Ends.attempt fun m => ?_) fun o => .ret _
  · unfold osVersion
    refine (Ends.file d _).attempt.bind fun i => .ite (.ret _) ((Ends.file d _).attempt.bind fun t => ?_)
    cases osRelease (osInfo i).2 t
    · exact .error
    · exact .ret _
  · obtain ⟨m', h⟩ := desktop_run d m
    exact ⟨_, h⟩

theorem ends_parsed {α : Type} {r : Out (Option (α × Str))} (f : α → Stacktrace) (h : Fine r) : Ends (parsed r f) := by
  unfold parsed
  refine (Ends.lift h).bind fun x => ?_
  cases x
  · exact .error
  · exact .ret _

theorem Ends.file_bind {β : Type} {d : Dir} {n : Str} {f : Str → M β} (h : ∀ t, d.contents n = some t → Ends (f t)) :
    Ends (Abrt.file d n >>= f) := by
  intro m
  show ∃ r, M.andThen _ _ m = .ok r
  unfold Abrt.file M.andThen
  cases e : d.contents n with
  | none => exact ⟨_, rfl⟩
  | some t => exact h t e m

/-- C80: reading of a report does not leave the texts or free memory twice, and ends, if no package that is mentioned has an epoch
that is not a number, and reading of the stack trace does so for Python. -/
theorem C80_safe_partial (name version : Str) (errno : Nat) (d : Dir) (m : Bool) (hq : ∀ l, (qsort Rpm.cmpNevra l).Perm l)
    (h1 : ∀ t, d.contents c!"dso_list" = some t → Rpm.Safe t)
    (h2 : ∀ t, d.contents c!"interpreter" = some t → Rpm.parseNevra t ≠ .failDangling)
    (h3 : ∀ t s, d.contents c!"type" = some t → abrtType t = .python → d.contents c!"backtrace" = some s → Fine (Text.Python.parse s)) :
    ∃ r, report qsort name version errno d m = .ok r := by
  revert m
  show Ends _
  unfold report
  refine .file_bind fun t ht => (ends_os d).bind fun os => (Ends.attempt fun m => ?_).bind fun c =>
    (ends_packages qsort d hq h1 h2).bind fun ps => Ends.bind ?_ fun n => Ends.bind ?_ fun st => .ret _
  · obtain ⟨m', h⟩ := component_run d m
    exact ⟨_, h⟩
  · unfold occurrences
    refine (Ends.file d _).bind fun s => ?_
    cases occurrencesOf errno s
    · exact .error
    · exact .ret _
  · have h4 : ∀ s, abrtType t = .python → d.contents c!"backtrace" = some s → Fine (Text.Python.parse s) := fun s => h3 t s ht
    cases e : abrtType t with
    | core =>
      refine (Ends.file d _).bind fun s => ?_
      cases coreFromText s
      · exact .error
      · exact .ret _
    | python => exact .file_bind fun s hs => (ends_parsed _ (h4 s e hs)).bind fun _ => .ret _
    | java => exact .file_bind fun s hs => (ends_parsed _ (Text.Java.C56_java_trace s)).bind fun _ => .ret _
    | ruby => exact .file_bind fun s hs => (ends_parsed _ (Text.Ruby.C56_ruby_trace s)).bind fun _ => .ret _
    | kerneloops =>
      exact (Ends.file d _).bind fun k => (Ends.file d _).bind fun s => (Ends.lift (Text.Koops.C56_koops_trace s)).bind fun _ => .ret _
    | _ => exact .ret _

/-- C80 needs the first condition: a package in the list of libraries whose epoch is not a number is freed twice. -/
theorem C80_not_safe : (report (fun _ l => l) [] [] 0 ⟨fun n => n = c!"dso_list", fun n =>
      if n = c!"type" then some c!"Python" else if n = c!"os_release" then some c!"Fedora release 17" else
      if n = c!"architecture" then some c!"i686" else if n = c!"dso_list" then some c!"/lib/a.so a-x:1-2.i686 (V) 1\n" else none⟩ false) = .ub := by
  decide +kernel

/-! ## Messages -/

/-- If the function fails, the message has been assigned. -/
def Explained {α : Type} (x : M α) : Prop := ∀ m m', x m = .ok (none, m') → m' = true

theorem Explained.bind {α β : Type} {x : M α} {f : α → M β} (hx : Explained x) (hf : ∀ a, Explained (f a)) : Explained (x >>= f) := by
  intro m m' h
  change M.andThen x f m = _ at h
  unfold M.andThen at h
  cases e : x m with
  | ok r =>
    obtain ⟨o, m1⟩ := r
    rw [e, Out.bind_ok] at h
    cases o with
    | none => cases h; exact hx _ _ e
    | some a => exact hf a _ _ h
  | abort => rw [e] at h; cases h
  | ub => rw [e] at h; cases h

theorem Explained.ret {α : Type} (a : α) : Explained (M.ret a) := fun _ _ h => by cases h
theorem Explained.error {α : Type} : Explained (M.error : M α) := fun _ _ h => by cases h; rfl
theorem Explained.lift {α : Type} (x : Out α) : Explained (M.lift x) := by
  intro m m' h
  unfold M.lift at h
  cases x <;> cases h
theorem Explained.attempt {α : Type} (x : M α) : Explained x.attempt := by
  intro m m' h
  unfold M.attempt at h
  cases e : x m with
  | ok r => rw [e] at h; cases h
  | abort => rw [e] at h; cases h
  | ub => rw [e] at h; cases h
theorem Explained.file (d : Dir) (n : Str) : Explained (Abrt.file d n) := by
  unfold Abrt.file
  cases d.contents n
  · exact .error
  · exact .ret _
theorem Explained.ite {α : Type} {c : Prop} [Decidable c] {x y : M α} (hx : c → Explained x) (hy : ¬ c → Explained y) :
    Explained (if c then x else y) := by
  split
  · next h => exact hx h
  · next h => exact hy h

theorem explained_package (d : Dir) : Explained (package d) := by
  unfold package
  refine (Explained.file d _).bind fun e => Explained.ite (fun _ => .error) fun _ => ?_
  intro m m' h
  unfold Abrt.file at h
  cases e1 : d.contents c!"pkg_name" <;> cases e2 : d.contents c!"pkg_version" <;> cases e3 : d.contents c!"pkg_release" <;>
    cases e4 : d.contents c!"pkg_arch" <;> rw [e1, e2, e3, e4] at h <;> cases h <;> rfl

theorem Explained.bind_gives {α β : Type} {x : M α} {f : α → M β} (hx : Explained x) (hf : ∀ a m, Gives m x a → Explained (f a)) :
    Explained (x >>= f) := by
  intro m m' h
  change M.andThen x f m = _ at h
  unfold M.andThen at h
  cases e : x m with
  | ok r =>
    obtain ⟨o, m1⟩ := r
    rw [e, Out.bind_ok] at h
    cases o with
    | none => cases h; exact hx _ _ e
    | some a => exact hf a m ⟨m1, e⟩ _ _ h
  | abort => rw [e] at h; cases h
  | ub => rw [e] at h; cases h

theorem uniq_ne_nil {l : List Rpm.Package} (h : l ≠ []) : Rpm.uniq l ≠ [] := by
  cases l with
  | nil => exact absurd rfl h
  | cons p l =>
    obtain ⟨q, hq, -⟩ := (Rpm.C36_uniq (p :: l)).2.1 p (by simp)
    exact List.ne_nil_of_mem hq

theorem explained_libraries (d : Dir) (own : List Rpm.Package)
    (h : own ≠ [] ∨ ¬ (d.exist c!"dso_list" = true ∧ ∃ t, d.contents c!"dso_list" = some t ∧ Rpm.parseDsoList t = .ok [])) :
    Explained (libraryPackages qsort d own) := by
  unfold libraryPackages
  refine .ite (fun hd => ?_) fun _ => .ret _
  cases e : d.contents c!"dso_list" with
  | none =>
    intro m m' hm
    change M.andThen _ _ m = _ at hm
    unfold dsoPackages at hm
    change M.andThen (M.andThen _ _) _ m = _ at hm
    unfold Abrt.file M.andThen M.attempt at hm
    rw [e] at hm
    change (if own = [] then M.fail else M.ret own) true = _ at hm
    split at hm
    · cases hm; rfl
    · cases hm
  | some t =>
    refine Explained.bind_gives ?_ fun ps m hg => ?_
    · unfold dsoPackages
      refine (Explained.attempt _).bind fun t => ?_
      cases t
      · exact .ret _
      · exact (Explained.lift _).bind fun l => .lift _
    · refine .ite (fun hps => absurd hps ?_) fun _ => .ret _
      rw [gives_dsos, e] at hg
      obtain ⟨l, h1, h2⟩ := hg
      rw [addDsos_iff] at h2
      rcases h2 with ⟨rfl, rfl⟩ | ⟨hl, s, h3, rfl⟩
      · exact h.resolve_right (not_not.2 ⟨hd, t, e, h1⟩)
      · apply uniq_ne_nil
        rintro rfl
        unfold Rpm.sort at h3
        split at h3
        · cases h3
        · next hne =>
          injection h3 with h3
          exact hne h3

/-- C84: if no report is read from a directory, the message says why, except in one case: the program is not packaged, and its list
of libraries names no package. -/
theorem C84_message_partial (name version : Str) (errno : Nat) (d : Dir) (m m' : Bool)
    (hl : ¬ (d.exist c!"package" = false ∧ d.exist c!"dso_list" = true ∧ ∃ t, d.contents c!"dso_list" = some t ∧ Rpm.parseDsoList t = .ok []))
    (h : report qsort name version errno d m = .ok (none, m')) : m' = true := by
  revert m m'
  show Explained _
  unfold report
  refine (Explained.file d _).bind fun t => Explained.bind ?_ fun os => (Explained.attempt _).bind fun c => Explained.bind ?_ fun ps =>
    Explained.bind ?_ fun n => Explained.bind ?_ fun st => .ret _
  · unfold operatingSystem
    refine Explained.bind ?_ fun os => (Explained.file d _).bind fun a => (Explained.attempt _).bind fun o => .ret _
    unfold osVersion
    refine (Explained.attempt _).bind fun i => .ite (fun _ => .ret _) fun _ => (Explained.attempt _).bind fun t => ?_
    cases osRelease (osInfo i).2 t
    · exact .error
    · exact .ret _
  · unfold packages
    refine (?_ : Explained (ownPackage d)).bind_gives fun own m hown => ((explained_libraries qsort d own ?_).bind fun libs => ?_)
    · unfold ownPackage
      exact .ite (fun _ => (explained_package d).bind fun p => .ret _) fun _ => .ret _
    · by_cases hp : d.exist c!"package" = true
      · left
        rw [gives_own, if_pos hp] at hown
        obtain ⟨p, -, rfl⟩ := hown
        simp
      · exact Or.inr fun hc => hl ⟨by simpa using hp, hc.1, hc.2⟩
    · refine .ite (fun _ => ?_) fun _ => .ret _
      unfold interpreterPackage
      refine (Explained.attempt _).bind fun t => ?_
      cases t
      · exact .ret _
      · exact .lift _
  · unfold occurrences
    refine (Explained.file d _).bind fun s => ?_
    cases occurrencesOf errno s
    · exact .error
    · exact .ret _
  · have hp : ∀ {α : Type} (r : Out (Option (α × Str))) (f : α → Stacktrace), Explained (parsed r f) := by
      intro α r f
      unfold parsed
      refine (Explained.lift r).bind fun x => ?_
      cases x
      · exact .error
      · exact .ret _
    cases abrtType t with
    | core =>
      refine (Explained.file d _).bind fun s => ?_
      cases coreFromText s
      · exact .error
      · exact .ret _
    | python => exact (Explained.file d _).bind fun s => (hp _ _).bind fun _ => .ret _
    | java => exact (Explained.file d _).bind fun s => (hp _ _).bind fun _ => .ret _
    | ruby => exact (Explained.file d _).bind fun s => (hp _ _).bind fun _ => .ret _
    | kerneloops =>
      exact (Explained.file d _).bind fun k => (Explained.file d _).bind fun s => (Explained.lift _).bind fun _ => .ret _
    | _ => exact .ret _

/-- A directory of a program that is not packaged, with a list of libraries that names no package. -/
def unpackaged (environ : Bool) : Dir where
  exist n := decide (n = c!"dso_list")
  contents n :=
    if n = c!"type" then some c!"CCpp" else if n = c!"os_info" then some c!"ID=fedora\nVERSION_ID=17\n" else
    if n = c!"architecture" then some c!"i686" else if n = c!"environ" ∧ environ then some c!"" else
    if n = c!"dso_list" then some c!"[vdso]\n" else none

/-- C84 does not hold in that case: no report is read, and there is no message. -/
theorem C84_not_explained : report (fun _ l => l) [] [] 0 (unpackaged true) false = .ok (none, false) := by decide +kernel

/-- A directory without the file `environ`. -/
def plainDir : Dir where
  exist _ := false
  contents n :=
    if n = c!"type" then some c!"Other" else if n = c!"os_info" then some c!"ID=fedora\nVERSION_ID=17\n" else
    if n = c!"architecture" then some c!"i686" else if n = c!"count" then some c!"3" else none

/-- Reading succeeded and left a message. -/
def succeededWithMessage (r : Out (Option UReport × Bool)) : Bool :=
  match r with
  | .ok (some _, true) => true
  | _ => false

/-- C84: that there is a message does not mean that there is no report: one is left if the file `environ` is missing, which is
optional. -/
theorem C84_not_only_failure : succeededWithMessage (report (fun _ l => l) [] [] 0 plainDir false) = true := by decide +kernel

/-! ## Stack traces written to a directory -/

/-- A frame of the system call page of the kernel that has no file name gets one. -/
def named (f : CoreFrame) : CoreFrame :=
  if f.fileName = none ∧ f.functionName = some c!"__kernel_vsyscall" then { f with fileName := some c!"kernel" } else f

theorem fulfillFrame_eq (f : CoreFrame) : fulfillFrame f = named f := by
  unfold fulfillFrame named
  cases h1 : f.fileName with
  | some x => simp
  | none =>
    cases h2 : f.functionName with
    | none => simp
    | some n =>
      dsimp only
      by_cases h : c!"__kernel_vsyscall" = n
      · rw [if_pos (strcmp_eq_zero.2 h), if_pos ⟨rfl, by rw [h]⟩]
      · rw [if_neg (fun e => h (strcmp_eq_zero.1 e)), if_neg (fun e => h (Option.some.inj e.2).symm)]

/-- C85: in a core stack trace that is written, a frame without a file name whose function is `__kernel_vsyscall` gets the file
name `kernel`; nothing else is changed. -/
theorem C85_fulfilled (t : CoreTrace) :
    fulfill t = { t with threads := t.threads.map fun th => { th with frames := th.frames.map named } } := by
  have h1 : ∀ fs, fulfillFrames fs = fs.map named := by
    intro fs
    induction fs with
    | nil => rfl
    | cons f fs ih => rw [fulfillFrames, ih, List.map_cons, fulfillFrame_eq]
  unfold fulfill
  congr 1
  induction t.threads with
  | nil => rfl
  | cons th ts ih => rw [fulfillThreads, ih, h1, List.map_cons]

/-- C85: the stack trace that was written to a directory is the one of the report that is read from it, up to the differences of
`Json.Core.keep` (see C40). -/
theorem C85_read_back {name version : Str} {errno : Nat} {d : Dir} {r : UReport} (t : CoreTrace) (h0 : t.threads ≠ []) (hs : t.signal < 2 ^ 16)
    (h : IsReport qsort name version errno (d.write c!"core_backtrace" (coreBacktrace t)) r)
    {suffix : Str} (ht : d.contents c!"type" = some (c!"CCpp" ++ suffix)) :
    r.type = .core ∧ r.stacktrace = some (.core (Json.Core.keep (fulfill t))) := by
  obtain ⟨x, h4, h5⟩ := h.type
  have e : (d.write c!"core_backtrace" (coreBacktrace t)).contents c!"type" = d.contents c!"type" := rfl
  rw [e, ht] at h4
  cases h4
  have h6 : r.type = .core := h5.trans (C49_abrt_partial .core c!"CCpp" rfl (by decide) suffix)
  have h7 := h.stacktrace
  rw [h6] at h7
  obtain ⟨x, v, h8, h9, h10⟩ := h7
  have e : (d.write c!"core_backtrace" (coreBacktrace t)).contents c!"core_backtrace" = some (coreBacktrace t) := rfl
  rw [e] at h8
  cases h8
  have hf : (fulfill t).threads ≠ [] := by
    rw [C85_fulfilled]
    simpa using h0
  have hf2 : (fulfill t).signal < 2 ^ 16 := by
    rw [C85_fulfilled]
    exact hs
  have h11 := Json.Core.C40_read_back (fulfill t) hf hf2
  rw [Json.parse_toks (Json.Core.trace_rend (fulfill t) hf)] at h11
  unfold coreBacktrace at h9
  rw [Json.parse_toks ((Json.Core.trace_rend (fulfill t) hf).ws_end (t := c!"\n") (by decide)), h11] at h9
  cases h9
  exact ⟨h6, h10⟩

/-- C85: the report that is read after a stack trace was written to the directory of a crash has that stack trace, and everything
else is as the directory said before. -/
theorem C85_written (name version : Str) (errno : Nat) (d : Dir) (r : UReport) (t : CoreTrace) (h0 : t.threads ≠ []) (hs : t.signal < 2 ^ 16)
    {suffix : Str} (ht : d.contents c!"type" = some (c!"CCpp" ++ suffix)) :
    IsReport qsort name version errno (d.write c!"core_backtrace" (coreBacktrace t)) r ↔
      (∃ os, IsOs d os ∧ r = {
        type := .core, reporterName := name, reporterVersion := version, «os» := some os, component := componentName d,
        packages := r.packages, serial := r.serial, stacktrace := some (.core (Json.Core.keep (fulfill t))) }) ∧ IsPackages qsort d r.packages ∧
      ∃ s, d.contents c!"count" = some s ∧ CountText s r.serial ∧ (r.serial = 0 → errno = 0) := by
  constructor
  · intro h
    obtain ⟨h1, h2⟩ := C85_read_back (qsort := qsort) t h0 hs h ht
    obtain ⟨os, h3, h4⟩ := h.os
    refine ⟨⟨os, h4, ?_⟩, h.packages, h.serial⟩
    have e := h.rest
    rw [h1, h2, h3, h.reporter.1, h.reporter.2, h.component] at e
    exact e
  · rintro ⟨⟨os, h1, h2⟩, h3, h4⟩
    have e : r.type = .core := by rw [h2]
    refine ⟨⟨_, ht, ?_⟩, ?_, ⟨os, ?_, h1⟩, ?_, h3, h4, ?_, ?_⟩
    · exact e.trans (C49_abrt_partial .core c!"CCpp" rfl (by decide) suffix).symm
    · rw [h2]; exact ⟨rfl, rfl⟩
    · rw [h2]
    · rw [h2]; rfl
    · have hf : (fulfill t).threads ≠ [] := by
        rw [C85_fulfilled]
        simpa using h0
      have hf2 : (fulfill t).signal < 2 ^ 16 := by
        rw [C85_fulfilled]
        exact hs
      have h11 := Json.Core.C40_read_back (fulfill t) hf hf2
      rw [Json.parse_toks (Json.Core.trace_rend (fulfill t) hf)] at h11
      rw [e]
      refine ⟨coreBacktrace t, Json.Core.keep (fulfill t), rfl, ?_, by rw [h2]⟩
      unfold coreBacktrace
      rw [Json.parse_toks ((Json.Core.trace_rend (fulfill t) hf).ws_end (t := c!"\n") (by decide))]
      exact h11
    · rw [h2]

/-! ## Example -/

/-- A directory of a Python problem. -/
def sampleDir : Dir where
  exist n := n = c!"package" ∨ n = c!"dso_list" ∨ n = c!"interpreter"
  contents n :=
    if n = c!"type" then some c!"Python3" else if n = c!"os_info" then some c!"ID=fedora\n" else
    if n = c!"os_release" then some c!"Fedora release 17" else if n = c!"architecture" then some c!"x86_64" else
    if n = c!"environ" then some c!"A=b\nDESKTOP_SESSION=gnome\n" else if n = c!"component" then some c!"b" else
    if n = c!"pkg_epoch" then some c!"0" else if n = c!"pkg_name" then some c!"b" else if n = c!"pkg_version" then some c!"1\n" else
    if n = c!"pkg_release" then some c!"2" else if n = c!"pkg_arch" then some c!"i686" else
    if n = c!"dso_list" then some c!"/a a-1-2.i686 (V) 1\n/b b-1-2.i686 (V) 7\n" else
    if n = c!"interpreter" then some c!"python3-3.2-1.x86_64" else if n = c!"count" then some c!"5" else
    if n = c!"backtrace" then some c!"Traceback (most recent call last):\n  File \"a.py\", line 4, in f\nKeyError: 1\n" else none

/-- A sorting function for it. -/
def sortTwo (_ : Rpm.Package → Rpm.Package → Int) (l : List Rpm.Package) : List Rpm.Package :=
  match l with
  | [x, y, z] => [y, x, z]
  | l => l

/-- The report of it. -/
def sampleReport : UReport where
  type := .python
  reporterName := c!"satyr"
  reporterVersion := c!"1"
  os := some { name := some c!"fedora", version := some c!"17", architecture := some c!"x86_64", desktop := some c!"gnome" }
  component := some c!"b"
  packages := [{ name := some c!"a", version := some c!"1", release := some c!"2", architecture := some c!"i686", installTime := 1 },
    { name := some c!"b", version := some c!"1", release := some c!"2", architecture := some c!"i686", installTime := 7, role := .affected },
    { name := some c!"python3", version := some c!"3.2", release := some c!"1", architecture := some c!"x86_64" }]
  stacktrace := some (.python ⟨some c!"KeyError", [⟨false, some c!"a.py", 4, false, some c!"f", none⟩]⟩)
  serial := 5

example : IsReport sortTwo c!"satyr" c!"1" 2 sampleDir sampleReport := 
  (C80_report sortTwo _ _ _ _ false _).1 ⟨false, by decide +kernel⟩

end Satyr.Abrt
