import Verif.Report.Types
import Verif.Json.Package
import Verif.Json.Core
import Verif.Json.Koops
/-!
# C48: the JSON form of reports
-/
namespace Satyr.Json
open Satyr.CStr

/-! ## Taking objects apart -/

theorem Rend.ne_nil {t : Tok} {ts : List Tok} (h : Rend (t :: ts) []) : False := by
  have := h.length
  simp at this

theorem Rend.nil_ws {s : Str} (h : Rend [] s) : s.all isWs = Bool.true := by
  generalize hl : ([] : List Tok) = l at h
  induction h with
  | nil => rfl
  | ws hc _ ih => simp [hc, ih hl]
  | _ => simp at hl

theorem Rend.snoc_inv {ts : List Tok} {s : Str} (h : Rend (ts ++ [.rbrace]) (s ++ ['}'])) : Rend ts s := by
  generalize hl : ts ++ [Tok.rbrace] = l at h
  generalize hx : s ++ ['}'] = x at h
  induction h generalizing ts s with
  | nil => simp at hl
  | @ws c us t hc h ih =>
    cases s with
    | nil => obtain ⟨rfl, -⟩ := List.cons.inj hx; simp [isWs] at hc
    | cons d s =>
      obtain ⟨rfl, rfl⟩ := List.cons.inj hx
      exact Rend.ws hc (ih hl rfl)
  | @lbrace us t h ih =>
    cases ts with
    | nil => simp at hl
    | cons k ts =>
      obtain ⟨rfl, rfl⟩ := List.cons.inj hl
      cases s with
      | nil => simp at hx
      | cons d s => obtain ⟨rfl, rfl⟩ := List.cons.inj hx; exact Rend.lbrace (ih rfl rfl)
  | @rbrace us t h ih =>
    cases ts with
    | nil =>
      obtain ⟨-, rfl⟩ := List.cons.inj hl
      cases s with
      | nil => exact Rend.nil
      | cons d s =>
        obtain ⟨rfl, rfl⟩ := List.cons.inj hx
        have := h.nil_ws
        simp [isWs] at this
    | cons k ts =>
      obtain ⟨rfl, rfl⟩ := List.cons.inj hl
      cases s with
      | nil =>
        obtain ⟨-, rfl⟩ := List.cons.inj hx
        cases ts with
        | nil => exact (Rend.ne_nil h).elim
        | cons => exact (Rend.ne_nil h).elim
      | cons d s => obtain ⟨rfl, rfl⟩ := List.cons.inj hx; exact Rend.rbrace (ih rfl rfl)
  | @lbracket us t h ih =>
    cases ts with
    | nil => simp at hl
    | cons k ts =>
      obtain ⟨rfl, rfl⟩ := List.cons.inj hl
      cases s with
      | nil => simp at hx
      | cons d s => obtain ⟨rfl, rfl⟩ := List.cons.inj hx; exact Rend.lbracket (ih rfl rfl)
  | @rbracket us t h ih =>
    cases ts with
    | nil => simp at hl
    | cons k ts =>
      obtain ⟨rfl, rfl⟩ := List.cons.inj hl
      cases s with
      | nil => simp at hx
      | cons d s => obtain ⟨rfl, rfl⟩ := List.cons.inj hx; exact Rend.rbracket (ih rfl rfl)
  | @colon us t h ih =>
    cases ts with
    | nil => simp at hl
    | cons k ts =>
      obtain ⟨rfl, rfl⟩ := List.cons.inj hl
      cases s with
      | nil => simp at hx
      | cons d s => obtain ⟨rfl, rfl⟩ := List.cons.inj hx; exact Rend.colon (ih rfl rfl)
  | @comma us t h ih =>
    cases ts with
    | nil => simp at hl
    | cons k ts =>
      obtain ⟨rfl, rfl⟩ := List.cons.inj hl
      cases s with
      | nil => simp at hx
      | cons d s => obtain ⟨rfl, rfl⟩ := List.cons.inj hx; exact Rend.comma (ih rfl rfl)
  | @null us t h ih =>
    cases ts with
    | nil => simp at hl
    | cons k ts =>
      obtain ⟨rfl, rfl⟩ := List.cons.inj hl
      obtain ⟨m, rfl, e⟩ := append_snoc_inv (a := c!"null") hx (fun e => by subst e; cases ts <;> exact (Rend.ne_nil h))
      subst e
      exact Rend.null (ih rfl rfl)
  | @true us t h ih =>
    cases ts with
    | nil => simp at hl
    | cons k ts =>
      obtain ⟨rfl, rfl⟩ := List.cons.inj hl
      obtain ⟨m, rfl, e⟩ := append_snoc_inv (a := c!"true") hx (fun e => by subst e; cases ts <;> exact (Rend.ne_nil h))
      subst e
      exact Rend.true (ih rfl rfl)
  | @false us t h ih =>
    cases ts with
    | nil => simp at hl
    | cons k ts =>
      obtain ⟨rfl, rfl⟩ := List.cons.inj hl
      obtain ⟨m, rfl, e⟩ := append_snoc_inv (a := c!"false") hx (fun e => by subst e; cases ts <;> exact (Rend.ne_nil h))
      subst e
      exact Rend.false (ih rfl rfl)
  | @num n c us t hc h ih =>
    cases ts with
    | nil => simp at hl
    | cons k ts =>
      obtain ⟨rfl, rfl⟩ := List.cons.inj hl
      have hx' : s ++ ['}'] = (natDec n ++ [c]) ++ t := by simpa using hx
      obtain ⟨m, rfl, e⟩ := append_snoc_inv hx' (fun e => by subst e; cases ts <;> exact (Rend.ne_nil h))
      subst e
      have := Rend.num n hc (ih rfl rfl)
      simpa using this
  | @str x us t h ih =>
    cases ts with
    | nil => simp at hl
    | cons k ts =>
      obtain ⟨rfl, rfl⟩ := List.cons.inj hl
      have hx' : s ++ ['}'] = ('"' :: (x.flatMap escapeChar ++ ['"'])) ++ t := by simpa using hx
      obtain ⟨m, rfl, e⟩ := append_snoc_inv hx' (fun e => by subst e; cases ts <;> exact (Rend.ne_nil h))
      subst e
      have := Rend.str x (ih rfl rfl)
      simpa using this
where
  append_snoc_inv {a s t : Str} (hx : s ++ ['}'] = a ++ t) (hne : t ≠ []) : ∃ m, s = a ++ m ∧ t = m ++ ['}'] := by
    obtain ⟨m, d, rfl⟩ : ∃ m d, t = m ++ [d] := ⟨t.dropLast, t.getLast hne, (List.dropLast_append_getLast hne).symm⟩
    rw [← List.append_assoc] at hx
    obtain ⟨h1, h2⟩ := List.append_inj' hx rfl
    exact ⟨m, h1, by rw [h2]⟩

theorem Rend.lbrace_inv {ts : List Tok} {s : Str} (h : Rend (.lbrace :: ts) ('{' :: s)) : Rend ts s := by
  generalize hl : Tok.lbrace :: ts = l at h
  generalize hx : '{' :: s = x at h
  cases h with
  | nil => simp at hl
  | ws hc h => obtain ⟨rfl, rfl⟩ := List.cons.inj hx; simp [isWs] at hc
  | lbrace h => obtain ⟨-, rfl⟩ := List.cons.inj hl; obtain ⟨-, rfl⟩ := List.cons.inj hx; exact h
  | _ => simp at hl

/-- The members of the text of an object. -/
theorem Body.dismantle {l : List (Str × Value)} {m : Str} (h : Rend (toks (.obj l)) ('{' :: (m ++ ['}']))) (hne : l ≠ []) :
    Body l (',' :: m) := by
  refine ⟨?_, by simp [hne], by simp⟩
  cases l with
  | nil => exact absurd rfl hne
  | cons e l =>
    obtain ⟨k, j⟩ := e
    rw [toks, memberToks, moreMemberToks_eq] at h
    have h1 := Rend.lbrace_inv h
    have e : (Tok.str k :: Tok.colon :: (toks j ++ (memToks l ++ [Tok.rbrace]))) =
        (.str k :: .colon :: (toks j ++ memToks l)) ++ [.rbrace] := by simp
    rw [e] at h1
    have := Rend.comma (Rend.snoc_inv h1)
    simpa [memToks] using this

end Satyr.Json

namespace Satyr.Report
open Satyr.CStr Satyr.Json Satyr.Frames

/-! ## The stack trace among the members of the problem -/

/-- The members of the problem that do not belong to the stack trace. -/
def problemKeys : List Str := [c!"type", c!"component", c!"user", c!"serial"]

/-- Two objects agree on all members that do not belong to the problem. -/
def Agree (j j' : Value) : Prop := isObject j = isObject j' ∧ ∀ key, key ∉ problemKeys → get j key = get j' key

theorem core_congr {j j' : Value} (h : Agree j j') : Core.fromJson j = Core.fromJson j' := by
  simp only [Core.fromJson, readU16, readStr, readBool, readArray, h.1, h.2 c!"signal" (by decide),
    h.2 c!"executable" (by decide), h.2 c!"only_crash_thread" (by decide), h.2 c!"stacktrace" (by decide)]

theorem python_congr {j j' : Value} (h : Agree j j') : Python.fromJson j = Python.fromJson j' := by
  simp only [Python.fromJson, readStr, readArray, h.1, h.2 c!"exception_name" (by decide), h.2 c!"stacktrace" (by decide)]

theorem ruby_congr {j j' : Value} (h : Agree j j') : Ruby.fromJson j = Ruby.fromJson j' := by
  simp only [Ruby.fromJson, readStr, readArray, h.1, h.2 c!"exception_name" (by decide), h.2 c!"stacktrace" (by decide)]

theorem java_congr {j j' : Value} (h : Agree j j') : Java.fromJson j = Java.fromJson j' := by
  simp only [Java.fromJson, readArray, h.1, h.2 c!"threads" (by decide)]

theorem koops_congr {j j' : Value} (h : Agree j j') : Koops.fromJson j = Koops.fromJson j' := by
  have e : Koops.headFromJson j = Koops.headFromJson j' := by
    simp only [Koops.headFromJson, Koops.flagsFromJson, readStr, h.1, h.2 c!"version" (by decide),
      h.2 c!"raw_oops" (by decide), h.2 c!"taint_flags" (by decide)]
  have e2 : Koops.modulesFromJson j = Koops.modulesFromJson j' := by
    simp only [Koops.modulesFromJson, h.2 c!"modules" (by decide)]
  simp only [Koops.fromJson, e, e2, readArray, h.2 c!"frames" (by decide)]

/-- The members written for a stack trace. -/
def vals : Stacktrace → List (Str × Value)
  | .core t => Core.traceVals t
  | .python t => Python.traceVals t
  | .koops t => Koops.traceVals t
  | .java t => [(c!"threads", .arr (t.threads.map fun th => .obj (Java.threadVals th)))]
  | .gdb _ => []
  | .ruby t => Ruby.traceVals t
  | .js t => Js.traceVals t

/-- The stack traces for which a JSON object with members is written: core stack traces with threads; Python, Ruby and
JavaScript stack traces with something known about the stack trace and about every frame; not those of gdb. -/
def Writable : Stacktrace → Prop
  | .core t => t.threads ≠ []
  | .python t => (t.exceptionName ≠ none ∨ t.frames ≠ []) ∧ ∀ f ∈ t.frames, Python.Some f
  | .koops _ => True
  | .java _ => True
  | .gdb _ => False
  | .ruby t => (t.exceptionName ≠ none ∨ t.frames ≠ []) ∧ ∀ f ∈ t.frames, Ruby.Some f
  | .js t => (t.exceptionName ≠ none ∨ t.frames ≠ [] ∨ t.platform ≠ 0) ∧ ∀ f ∈ t.frames, Js.Some f

theorem finishSafely_shape (b : Str) : ∃ m, finishSafely b = '{' :: (m ++ ['}']) := by
  unfold finishSafely
  split
  · exact ⟨_, rfl⟩
  · exact ⟨[], rfl⟩

theorem trace_text (t : Stacktrace) (h : Writable t) :
    ∃ m, traceToJson t = some ('{' :: (m ++ ['}'])) ∧ Body (vals t) (',' :: m) := by
  have main : ∀ s, traceToJson t = some s → (∃ m, s = '{' :: (m ++ ['}'])) → Rend (toks (.obj (vals t))) s → vals t ≠ [] →
      ∃ m, traceToJson t = some ('{' :: (m ++ ['}'])) ∧ Body (vals t) (',' :: m) := by
    rintro s h1 ⟨m, rfl⟩ h2 h3
    exact ⟨m, h1, Body.dismantle h2 h3⟩
  cases t with
  | core t =>
    refine main _ rfl ?_ (Core.trace_rend t h) (by simp [vals, Core.traceVals])
    refine ⟨c!"   \"signal\": " ++ (natDec t.signal ++ (c!"\n" ++ (strMember c!",   \"executable\": " t.executable ++
      ((if t.onlyCrashThread then c!",   \"only_crash_thread\": true\n" else []) ++ (c!",   \"stacktrace\":\n" ++
      Json.arrayText (Core.threadTexts t.crashThread t.threads)))))), ?_⟩
    simp [Core.toJson, numMember]
  | python t =>
    refine main _ rfl (finishSafely_shape _) (Python.trace_rend t h.2) ?_
    have := h.1
    simp only [vals, Python.traceVals, ne_eq, List.append_eq_nil_iff, arrVal]
    rintro ⟨h1, h2⟩
    rcases h.1 with h3 | h3
    · obtain ⟨s, hs⟩ := Option.ne_none_iff_exists'.1 h3
      simp [hs, strVal] at h1
    · simp [h3] at h2
  | koops t =>
    refine main _ rfl ?_ (Koops.trace_rend t) (by simp [vals, Koops.traceVals])
    unfold Koops.toJson
    split
    · exact ⟨_, rfl⟩
    · exact ⟨[], rfl⟩
  | java t =>
    refine main _ rfl ?_ (Java.trace_rend t) (by simp [vals])
    refine ⟨c!"   \"threads\":" ++ ((if t.threads ≠ [] then c!"\n" else c!" [") ++ Json.arrayText (t.threads.map Java.threadToJson)), ?_⟩
    simp [Java.toJson]
  | gdb t => exact h.elim
  | ruby t =>
    refine main _ rfl (finishSafely_shape _) (Ruby.trace_rend t h.2) ?_
    have := h.1
    simp only [vals, Ruby.traceVals, ne_eq, List.append_eq_nil_iff, arrVal]
    rintro ⟨h1, h2⟩
    rcases h.1 with h3 | h3
    · obtain ⟨s, hs⟩ := Option.ne_none_iff_exists'.1 h3
      simp [hs, strVal] at h1
    · simp [h3] at h2
  | js t =>
    refine main _ rfl (finishSafely_shape _) (Js.trace_rend t h.2) ?_
    have := h.1
    simp only [vals, Js.traceVals, ne_eq, List.append_eq_nil_iff, arrVal]
    rintro ⟨h1, h2, h4⟩
    rcases h.1 with h3 | h3 | h3
    · obtain ⟨s, hs⟩ := Option.ne_none_iff_exists'.1 h3
      simp [hs, strVal] at h1
    · simp [h3] at h2
    · simp [h3] at h4

theorem dismantle_eq (m : Str) : dismantle ('{' :: (m ++ ['}'])) = .ok (',' :: m) := by
  unfold dismantle
  rw [if_neg (by simp), if_neg (by simp [List.getLast?_append, List.getLast?_cons])]
  simp

/-! ## The problem -/

/-- The members of the stack trace, if there is one. -/
def optVals : Option Stacktrace → List (Str × Value)
  | none => []
  | some t => vals t

def userVal (r : UReport) : List (Str × Value) :=
  if r.type ≠ .kerneloops then [(c!"user", .obj [(c!"root", .bool r.userRoot), (c!"local", .bool r.userLocal)])] else []

def problemHead (r : UReport) : List (Str × Value) :=
  [(c!"type", .str (typeText r))] ++ (strVal c!"component" r.component ++ (userVal r ++ [(c!"serial", .num r.serial)]))

def problemVals (r : UReport) : List (Str × Value) := problemHead r ++ optVals r.stacktrace

theorem traceMembers_body (o : Option Stacktrace) (h : ∀ t, o = some t → Writable t) :
    ∃ s, traceMembers o = .ok s ∧ Body (optVals o) s := by
  cases o with
  | none => exact ⟨[], rfl, Body.nil⟩
  | some t =>
    obtain ⟨m, h1, h2⟩ := trace_text t (h t rfl)
    refine ⟨',' :: m, ?_, h2⟩
    rw [traceMembers, h1]
    exact dismantle_eq m

theorem user_body (r : UReport) : Body (userVal r) (userMember r) := by
  unfold userVal userMember boolText
  refine Body.ite (fun _ => ?_) fun _ => Body.nil
  have e : ∀ x : Str, c!",   \"user\": {   \"root\": " ++ x = c!",   \"user\": " ++ (c!"{   \"root\": " ++ x) := fun x => rfl
  rw [e]
  refine Body.one 100 (by decide) rfl ?_
  cases r.userRoot <;> cases r.userLocal <;> exact rend_lit 100 (by decide)

theorem problem_rend (r : UReport) (h : ∀ t, r.stacktrace = some t → Writable t) :
    ∃ s, problemText r (typeText r) = .ok s ∧ Rend (toks (.obj (problemVals r))) s := by
  obtain ⟨s, h1, h2⟩ := traceMembers_body r.stacktrace h
  refine ⟨_, by rw [problemText, h1, Out.bind_ok, Out.pure_eq], ?_⟩
  have hb : Body (problemVals r) (c!",   \"type\": " ++ (escaped (typeText r) ++ (c!"\n")) ++
      (strMember c!",   \"component\": " r.component ++ (userMember r ++ numMember c!",   \"serial\": " r.serial)) ++ s) := by
    refine Body.append ?_ h2
    refine Body.append ?_ ?_
    · exact Body.one 100 (by decide) rfl ((rend_escaped _).ws_end rfl)
    refine Body.append (Body.strMember 100 (by decide) rfl _) ?_
    exact Body.append (user_body r) (Body.numMember 100 (by decide) rfl _)
  have := hb.object (by simp [problemVals, problemHead]) [] rfl
  simpa using this

/-! ## The whole report -/

/-- A text without quotation marks, backslashes and control characters. -/
def Plain (s : Str) : Prop := s.all plainChar = true

instance (s : Str) : Decidable (Plain s) := by unfold Plain; infer_instance

def reporterVal (r : UReport) : Value := .obj [(c!"name", .str r.reporterName), (c!"version", .str r.reporterVersion)]

def authVal : List (Str × Str) → List (Str × Value)
  | [] => []
  | l => [(c!"auth", .obj (l.map fun e => (e.1, .str e.2)))]

def osVal : Option Os.OperatingSystem → List (Str × Value)
  | none => []
  | some os => [(c!"os", .obj (Json.Os.osVals os))]

def reportVals (r : UReport) (reason : Str) : List (Str × Value) :=
  [(c!"ureport_version", .num r.version)] ++ ([(c!"reason", .str reason)] ++ ([(c!"reporter", reporterVal r)] ++
  (osVal r.os ++ ([(c!"problem", .obj (problemVals r))] ++
  ([(c!"packages", .arr (r.packages.map fun p => .obj (Json.Rpm.packageVals p)))] ++ authVal r.auth)))))

theorem rend_plain {s : Str} (h : Plain s) : Rend [.str s] ('"' :: (s ++ ['"'])) := by
  have := Rend.str s Rend.nil
  rwa [escape_plain h] at this

theorem reporter_rend (r : UReport) (h1 : Plain r.reporterName) (h2 : Plain r.reporterVersion) :
    Rend (toks (reporterVal r)) (reporterText r) := by
  have a1 : Rend [.lbrace, .str c!"name", .colon] c!"{   \"name\": " := rend_lit 100 (by decide)
  have a2 : Rend [.comma, .str c!"version", .colon] c!"\n,   \"version\": " := rend_lit 100 (by decide)
  have a3 : Rend [.rbrace] c!"\n}" := rend_lit 100 (by decide)
  have := a1.append ((rend_plain h1).append (a2.append ((rend_plain h2).append a3)))
  simpa [reporterVal, reporterText, toks, memberToks, moreMemberToks] using this

theorem authRest_rend (l : List (Str × Str)) :
    Rend (memToks (l.map fun e => (e.1, Value.str e.2))) (authRest l) := by
  induction l with
  | nil => exact Rend.nil
  | cons e l ih =>
    have a1 : Rend [.comma] c!"            ,   " := rend_lit 100 (by decide)
    have a2 : Rend [.colon] c!": " := rend_lit 100 (by decide)
    have a3 : Rend [] c!"\n" := rend_lit 100 (by decide)
    have := a1.append ((rend_escaped e.1).append (a2.append ((rend_escaped e.2).append (a3.append ih))))
    simpa [authRest, memToks, toks] using this

theorem auth_body (l : List (Str × Str)) : Body (authVal l) (authMember l) := by
  cases l with
  | nil => exact Body.nil
  | cons e l =>
    have a1 : Rend [.lbrace] c!"{   " := rend_lit 100 (by decide)
    have a2 : Rend [.colon] c!": " := rend_lit 100 (by decide)
    have a3 : Rend [] c!"\n" := rend_lit 100 (by decide)
    have a4 : Rend [.rbrace] c!"            } " := rend_lit 100 (by decide)
    have h := a1.append ((rend_escaped e.1).append (a2.append ((rend_escaped e.2).append (a3.append
      ((authRest_rend l).append a4)))))
    have h' : Rend (toks (.obj ((e :: l).map fun e => (e.1, Value.str e.2))))
        (c!"{   " ++ (escaped e.1 ++ (c!": " ++ (escaped e.2 ++ (c!"\n" ++ (authRest l ++ c!"            } ")))))) := by
      rw [List.map_cons, toks, memberToks, moreMemberToks_eq]
      simpa [toks] using h
    have := Body.one (name := c!",   \"auth\": ") (key := c!"auth") 100 (by decide) rfl h'
    simpa [authMember, authVal] using this

theorem os_body (o : Option Os.OperatingSystem) : Body (osVal o) (osMember o) := by
  cases o with
  | none => exact Body.nil
  | some os => exact Body.one 100 (by decide) rfl (((Json.Os.os_rend os).indent 10).ws_end rfl)

theorem packages_body (l : List Rpm.Package) :
    Body [(c!"packages", .arr (l.map fun p => .obj (Json.Rpm.packageVals p)))] (packagesMember l) := by
  unfold packagesMember
  by_cases h : l = []
  · rw [if_neg (by simp [h]), h]
    exact Body.one (name := c!",   \"packages\": ") (t := c!"[]\n") 100 (by decide) rfl (rend_lit 100 (by decide))
  · rw [if_pos h]
    exact Body.one 100 (by decide) rfl (((Json.Rpm.list_rend l h).indent 16).ws_end rfl)

theorem report_rend (r : UReport) (reason : Str) (hr : reasonText r = .ok reason)
    (h : ∀ t, r.stacktrace = some t → Writable t) (h1 : Plain r.reporterName) (h2 : Plain r.reporterVersion) :
    ∃ s, toJson r = .ok s ∧ Rend (toks (.obj (reportVals r reason))) s := by
  obtain ⟨p, hp1, hp2⟩ := problem_rend r h
  refine ⟨_, by rw [toJson, hr, Out.bind_ok, hp1, Out.bind_ok, Out.pure_eq], ?_⟩
  have hb : Body (reportVals r reason)
      (numMember c!",   \"ureport_version\": " r.version ++ ((c!",   \"reason\": " ++ (escaped reason ++ c!"\n")) ++
      ((c!",   \"reporter\": " ++ (indentExceptFirst 16 (reporterText r) ++ c!"\n")) ++
      (osMember r.os ++ ((c!",   \"problem\": " ++ (indentExceptFirst 15 p ++ c!"\n")) ++
      (packagesMember r.packages ++ authMember r.auth)))))) := by
    refine Body.append (Body.numMember 100 (by decide) rfl _) ?_
    refine Body.append (Body.one 100 (by decide) rfl ((rend_escaped _).ws_end rfl)) ?_
    refine Body.append (Body.one 100 (by decide) rfl (((reporter_rend r h1 h2).indent 16).ws_end rfl)) ?_
    refine Body.append (os_body _) ?_
    refine Body.append (Body.one 100 (by decide) rfl ((hp2.indent 15).ws_end rfl)) ?_
    exact Body.append (packages_body _) (auth_body _)
  have := hb.object (by simp [reportVals]) [] rfl
  simpa [numMember] using this

/-! ## Reading the report -/

theorem addEntry_new {k : Str} {v : Value} {l : List (Str × Value)} (h : k ∉ l.map Prod.fst) :
    addEntry k v l = l ++ [(k, v)] := by
  induction l with
  | nil => rfl
  | cons e l ih =>
    rw [List.map_cons, List.mem_cons, not_or] at h
    rw [addEntry, if_neg (fun x => h.1 x.symm), ih h.2]
    rfl

theorem entries_nodup {l : List (Str × Value)} (h : (l.map Prod.fst).Nodup) : entries l = l := by
  have : ∀ acc : List (Str × Value), ((acc ++ l).map Prod.fst).Nodup →
      l.foldl (fun acc m => addEntry m.1 m.2 acc) acc = acc ++ l := by
    clear h
    induction l with
    | nil => intro acc _; simp
    | cons e l ih =>
      intro acc hn
      have hk : e.1 ∉ acc.map Prod.fst := by
        rw [List.map_append, List.map_cons, List.nodup_append] at hn
        intro hm
        exact hn.2.2 _ hm _ (by simp) rfl
      rw [List.foldl_cons, addEntry_new hk, ih (acc ++ [(e.1, e.2)]) (by simpa using hn)]
      simp
  simpa [entries] using this [] (by simpa using h)

theorem readAuthLoop_strs (l : List (Str × Str)) (acc : List (Str × Str)) :
    readAuthLoop acc (l.map fun e => (e.1, Value.str e.2)) = l.reverse ++ acc := by
  induction l generalizing acc with
  | nil => rfl
  | cons e l ih => rw [List.map_cons, readAuthLoop, ih]; simp

theorem get_authVal (l : List (Str × Str)) (key : Str) : get (.obj (authVal l)) key =
    if c!"auth" = key then (if l = [] then none else some (.obj (l.map fun e => (e.1, .str e.2)))) else none := by
  cases l with
  | nil => simp [authVal, get_obj_nil]
  | cons e l => rw [authVal, get_obj_one]; simp; simp

theorem get_osVal (o : Option Os.OperatingSystem) (key : Str) : get (.obj (osVal o)) key =
    if c!"os" = key then o.map (fun os => Value.obj (Json.Os.osVals os)) else none := by
  cases o with
  | none => simp [osVal, get_obj_nil]
  | some os => rw [osVal, get_obj_one]; simp

theorem get_userVal (r : UReport) (key : Str) (h : key ≠ c!"user") : get (.obj (userVal r)) key = none := by
  unfold userVal
  have h' : ¬ c!"user" = key := fun e => h e.symm
  rw [get_ite, get_obj_one, get_obj_nil]
  simp only [if_neg h', ite_self]

/-! ### Specification of what is read -/

/-- What a stack trace becomes. -/
def keepTrace : Stacktrace → Stacktrace
  | .core t => .core (Core.keep t)
  | .python t => .python (Python.keep t)
  | .koops t => .koops (Koops.keep t)
  | .java t => .java (Java.keep t)
  | .gdb t => .gdb t
  | .ruby t => .ruby (Ruby.keep t)
  | .js t => .js (Js.keep t)

/-- The types whose stack trace is read. -/
def readable : ReportType → Bool
  | .core | .python | .kerneloops | .java | .ruby => true
  | _ => false

/-- What a report becomes: numbers of 32 bits saturate, the type gdb becomes invalid, the user is lost, the stack traces of
reports that are neither of type core, Python, kernel oops, Java nor Ruby are lost, and the parts change as described for
them. -/
def keep (r : UReport) : UReport :=
  { version := keep32 r.version
    type := if r.type = .gdb then .invalid else r.type
    reporterName := r.reporterName
    reporterVersion := r.reporterVersion
    userRoot := false
    userLocal := true
    os := r.os.map Json.Os.keep
    component := r.component
    packages := r.packages.map Json.Rpm.keepPackage
    stacktrace := if readable r.type then r.stacktrace.map keepTrace else none
    auth := r.auth
    serial := keep32 r.serial }

/-- The stack trace is one of the type of the report. -/
def Matches : ReportType → Stacktrace → Prop
  | .core, .core _ => True
  | .python, .python _ => True
  | .kerneloops, .koops _ => True
  | .java, .java _ => True
  | .ruby, .ruby _ => True
  | .javascript, .js _ => True
  | _, _ => False

/-- The reason of the stack trace is defined: the frame it names has a file name. -/
def HasReason : Stacktrace → Prop
  | .python t => ∀ f, t.frames.getLast? = some f → f.fileName ≠ none
  | .ruby t => ∀ f, t.frames.head? = some f → f.fileName ≠ none
  | .js t => ∀ f, t.frames.head? = some f → f.fileName ≠ none
  | .gdb _ => False
  | _ => True

/-- The ranges of the C types, and fewer than 128 modules. -/
def InRange : Stacktrace → Prop
  | .core t => t.signal < 2 ^ 16
  | .koops t => ∀ l, t.modules = some l → l.length < 128
  | _ => True

/-- The reports that are written and read: names of the reporter without special characters, different authentication keys, and
a stack trace of the type of the report for which there is something to write. -/
structure WF (r : UReport) : Prop where
  name : Plain r.reporterName
  version : Plain r.reporterVersion
  auth : (r.auth.map Prod.fst).Nodup
  writable : ∀ t, r.stacktrace = some t → Writable t
  trace : r.type.supported = true → ∃ t, r.stacktrace = some t ∧ Matches r.type t ∧ HasReason t ∧ InRange t

theorem reason_ok (t : Stacktrace) (h : HasReason t) : ∃ s, traceReason t = .ok (some s) := by
  cases t with
  | core t => exact ⟨_, rfl⟩
  | python t =>
    obtain ⟨h1, h2, -⟩ := C64_python t
    cases hl : t.frames.getLast? with
    | none =>
      obtain ⟨s, hs, -⟩ := h2 (List.getLast?_eq_none_iff.1 hl)
      exact ⟨s, by rw [traceReason, hs]; rfl⟩
    | some f =>
      obtain ⟨n, hn⟩ := Option.ne_none_iff_exists'.1 (h f hl)
      obtain ⟨s, hs, -⟩ := h1 f n hl hn
      exact ⟨s, by rw [traceReason, hs]; rfl⟩
  | koops t => exact ⟨_, by rw [traceReason, C64_koops]; rfl⟩
  | java t =>
    obtain ⟨s, hs, -⟩ := C64_java t
    exact ⟨s, by rw [traceReason, hs]; rfl⟩
  | gdb t => exact h.elim
  | ruby t =>
    obtain ⟨h1, h2, -⟩ := C64_ruby t
    cases hl : t.frames.head? with
    | none =>
      obtain ⟨s, hs, -⟩ := h2 (List.head?_eq_none_iff.1 hl)
      exact ⟨s, by rw [traceReason, hs]; rfl⟩
    | some f =>
      obtain ⟨n, hn⟩ := Option.ne_none_iff_exists'.1 (h f hl)
      obtain ⟨s, hs, -⟩ := h1 f n hl hn
      exact ⟨s, by rw [traceReason, hs]; rfl⟩
  | js t =>
    obtain ⟨h1, h2, -⟩ := C64_js t
    cases hl : t.frames.head? with
    | none =>
      obtain ⟨s, hs, -⟩ := h2 (List.head?_eq_none_iff.1 hl)
      exact ⟨_, by rw [traceReason, hs]; rfl⟩
    | some f =>
      obtain ⟨n, hn⟩ := Option.ne_none_iff_exists'.1 (h f hl)
      obtain ⟨s, hs, -⟩ := h1 f n hl hn
      exact ⟨_, by rw [traceReason, hs]; rfl⟩

theorem reasonText_ok (r : UReport) (h : WF r) : ∃ s, reasonText r = .ok s := by
  unfold reasonText
  by_cases hs : r.type.supported = true
  · obtain ⟨t, h1, -, h2, -⟩ := h.trace hs
    obtain ⟨s, h3⟩ := reason_ok t h2
    rw [if_pos hs, h1]
    exact ⟨s, by simp only [h3]; rfl⟩
  · rw [if_neg hs]
    exact ⟨_, rfl⟩

theorem koops_read (t : KoopsTrace) (hm : ∀ l, t.modules = some l → l.length < 128) :
    Koops.fromJson (.obj (Koops.traceVals t)) = .ok (some (Koops.keep t)) := by
  have := Koops.C41_read_back t hm
  rw [parse_toks (Koops.trace_rend t), Option.map_some, Option.some.injEq] at this
  exact this

theorem agree (r : UReport) (t : Stacktrace) (h : r.stacktrace = some t) :
    Agree (.obj (problemVals r)) (.obj (vals t)) := by
  refine ⟨rfl, fun key hk => ?_⟩
  simp only [problemKeys, List.mem_cons, List.not_mem_nil, or_false, not_or] at hk
  obtain ⟨h1, h2, h3, h4⟩ := hk
  rw [problemVals, get_obj_append, h, optVals, problemHead, get_obj_append, get_obj_append, get_obj_append, get_obj_one,
    get_strVal, get_userVal r key h3, get_obj_one]
  have h1' : ¬ c!"type" = key := fun e => h1 e.symm
  have h2' : ¬ c!"component" = key := fun e => h2 e.symm
  have h4' : ¬ c!"serial" = key := fun e => h4 e.symm
  rw [if_neg h1', if_neg h2', if_neg h4']
  cases get (.obj (vals t)) key <;> rfl

theorem trace_from (r : UReport) (h : WF r) :
    traceFromJson (if r.type = .gdb then .invalid else r.type) (.obj (problemVals r)) =
      .ok (if readable r.type then r.stacktrace.map keepTrace else none) := by
  by_cases hs : r.type.supported = true
  · obtain ⟨t, h1, h2, -, h3⟩ := h.trace hs
    have ha := agree r t h1
    rw [h1]
    cases ht : r.type <;> rw [ht] at h2 hs <;> cases t <;> first | exact h2.elim | skip
    · rw [if_neg (by simp)]
      simp only [traceFromJson, readable, core_congr ha, vals, Core.trace_read _ h3]
      rfl
    · rw [if_neg (by simp)]
      simp only [traceFromJson, readable, python_congr ha, vals, Python.trace_read _]
      rfl
    · rw [if_neg (by simp)]
      simp only [traceFromJson, readable, koops_congr ha, vals, koops_read _ h3]
      rfl
    · rw [if_neg (by simp)]
      simp only [traceFromJson, readable, java_congr ha, vals]
      have := Java.trace_read
      simp only [Java.traceVal] at this
      rw [this]
      rfl
    · rw [if_neg (by simp)]
      simp only [traceFromJson, readable, ruby_congr ha, vals, Ruby.trace_read _]
      rfl
    · rfl
  · cases ht : r.type <;> rw [ht] at hs <;> first | exact absurd rfl hs | rfl

theorem type_read (r : UReport) : ReportType.ofCode (typeFromString (some (typeText r))) =
    if r.type = .gdb then .invalid else r.type := by
  unfold typeText
  cases r.type <;> decide +kernel

theorem get_problem_head (r : UReport) (key : Str) (hk : key ∈ problemKeys) :
    get (.obj (problemVals r)) key = get (.obj (problemHead r)) key := by
  have hv : get (.obj (optVals r.stacktrace)) key = none := by
    cases hst : r.stacktrace with
    | none => rfl
    | some t =>
      simp only [problemKeys, List.mem_cons, List.not_mem_nil, or_false] at hk
      rw [optVals]
      cases t with
      | core t => rcases hk with rfl | rfl | rfl | rfl <;> simp [vals, Core.traceVals, get_obj_append, get_obj_cons, get_strVal, get_ite, get_obj_nil]
      | python t => rcases hk with rfl | rfl | rfl | rfl <;> simp [vals, Python.traceVals, get_obj_append, get_strVal, get_arrVal]
      | koops t => rcases hk with rfl | rfl | rfl | rfl <;> simp [vals, Koops.traceVals, get_obj_append, get_obj_cons, get_strVal, get_ite, get_obj_nil, Koops.get_modulesVal]
      | java t => rcases hk with rfl | rfl | rfl | rfl <;> simp [vals, get_obj_one]
      | gdb t => rfl
      | ruby t => rcases hk with rfl | rfl | rfl | rfl <;> simp [vals, Ruby.traceVals, get_obj_append, get_strVal, get_arrVal]
      | js t => rcases hk with rfl | rfl | rfl | rfl <;> simp [vals, Js.traceVals, get_obj_append, get_obj_one, get_strVal, get_arrVal, get_ite, get_obj_nil]
  rw [problemVals, get_obj_append, hv]
  rfl

theorem report_read (r : UReport) (h : WF r) (reason name version : Str) :
    fromJson name version (.obj (reportVals r reason)) = .ok (some (keep r)) := by
  generalize hv : (Value.obj (reportVals r reason)) = j
  have gets : ∀ key, get j key = _ := fun key => by
    rw [← hv, reportVals, get_obj_append, get_obj_append, get_obj_append, get_obj_append, get_obj_append, get_obj_append,
      get_obj_one, get_obj_one, get_obj_one, get_osVal, get_obj_one, get_obj_one, get_authVal]
  have g1 : readU32 j c!"ureport_version" 2 = some (keep32 r.version) := by
    apply readU32_of; rw [gets]; simp
  have g2 : readReporter j name version = some (r.reporterName, r.reporterVersion) := by
    have : get j c!"reporter" = some (reporterVal r) := by rw [gets]; simp
    rw [readReporter, this]
    simp [reporterVal, isObject, readStr, get_obj_cons, get_obj_nil]
  have g3 : readOs j = some (r.os.map Json.Os.keep) := by
    have : get j c!"os" = r.os.map (fun os => Value.obj (Json.Os.osVals os)) := by rw [gets]; simp
    rw [readOs, this]
    cases r.os with
    | none => rfl
    | some os => simp [Json.Os.os_read]
  have g4 : readPackages j = some (r.packages.map Json.Rpm.keepPackage) := by
    have : get j c!"packages" = some (.arr (r.packages.map fun p => .obj (Json.Rpm.packageVals p))) := by rw [gets]; simp
    rw [readPackages, this]
    exact Json.Rpm.list_read _
  have g5 : get j c!"problem" = some (.obj (problemVals r)) := by rw [gets]; simp
  have g6 : readAuth j = some r.auth := by
    have : get j c!"auth" = if r.auth = [] then none else some (.obj (r.auth.map fun e => (e.1, .str e.2))) := by
      rw [gets]; simp
    rw [readAuth, this]
    by_cases ha : r.auth = []
    · rw [if_pos ha, ha]
    · rw [if_neg ha]
      have hn : ((r.auth.map fun e => (e.1, Value.str e.2)).map Prod.fst).Nodup := by
        rw [List.map_map]; exact h.auth
      simp only [entries_nodup hn]
      rw [← List.map_reverse, readAuthLoop_strs]
      simp
  have g7 : readUser j false true = some (false, true) := by
    have : get j c!"user" = none := by rw [gets]; simp
    rw [readUser, this]
  have g8 : readStr (.obj (problemVals r)) c!"type" none = some (some (typeText r)) := by
    apply readStr_of
    rw [get_problem_head r _ (by decide), problemHead, get_obj_append, get_obj_append, get_obj_append, get_obj_one,
      get_strVal, get_userVal r _ (by decide), get_obj_one]
    simp
  have g9 : readStr (.obj (problemVals r)) c!"component" none = some r.component := by
    apply readStr_of
    rw [get_problem_head r _ (by decide), problemHead, get_obj_append, get_obj_append, get_obj_append, get_obj_one,
      get_strVal, get_userVal r _ (by decide), get_obj_one]
    simp
  have g10 : readU32 (.obj (problemVals r)) c!"serial" 0 = some (keep32 r.serial) := by
    apply readU32_of
    rw [get_problem_head r _ (by decide), problemHead, get_obj_append, get_obj_append, get_obj_append, get_obj_one,
      get_strVal, get_userVal r _ (by decide), get_obj_one]
    simp
  have hh : readHead j name version = some (keep32 r.version, (r.reporterName, r.reporterVersion), r.os.map Json.Os.keep,
      r.packages.map Json.Rpm.keepPackage) := by
    rw [readHead, if_neg (by rw [← hv]; simp [isObject]), g1, g2, g3, g4]
    rfl
  have hp : readProblem j (.obj (problemVals r)) =
      some (if r.type = .gdb then .invalid else r.type, r.component, (false, true), keep32 r.serial) := by
    rw [readProblem, if_neg (by simp [isObject]), g8, g9, g7, g10]
    simp only [Option.bind_some, type_read]
  have ht : readProblemTrace j = .ok (some (if r.type = .gdb then .invalid else r.type, r.component, (false, true),
      keep32 r.serial, if readable r.type then r.stacktrace.map keepTrace else none)) := by
    rw [readProblemTrace, g5]
    dsimp only
    rw [hp]
    dsimp only
    rw [trace_from r h]
    rfl
  rw [fromJson, hh]
  dsimp only
  rw [ht, Out.bind_ok]
  dsimp only
  rw [g6]
  rfl

/-! ## C48 -/

/-- C48: what is written for a report (with names of the reporter without special characters, and a stack trace of its type
for which there is something to write) is a JSON document from which the same report is read, except for the differences
described by `keep`. -/
theorem C48_read_back (r : UReport) (h : WF r) (name version : Str) :
    ∃ s, toJson r = .ok s ∧ (parse s).map (fromJson name version) = some (.ok (some (keep r))) := by
  obtain ⟨reason, hr⟩ := reasonText_ok r h
  obtain ⟨s, h1, h2⟩ := report_rend r reason hr h.writable h.name h.version
  refine ⟨s, h1, ?_⟩
  rw [parse_toks h2, Option.map_some, report_read r h]

/-- C48: so the same report is read from what is written for a report of a type other than gdb and JavaScript, about a problem
of a user that is not root and is local, with small numbers and parts that are unchanged. -/
theorem C48_round_trip_partial (r : UReport) (h : WF r) (name version : Str)
    (h1 : r.version < 2 ^ 31) (h2 : r.serial < 2 ^ 31) (h3 : r.userRoot = false) (h4 : r.userLocal = true)
    (h5 : readable r.type ∨ (r.type = .invalid ∧ r.stacktrace = none))
    (h6 : ∀ os, r.os = some os → Json.Os.keep os = os) (h7 : ∀ p ∈ r.packages, Json.Rpm.keepPackage p = p)
    (h8 : ∀ t, r.stacktrace = some t → keepTrace t = t) :
    ∃ s, toJson r = .ok s ∧ (parse s).map (fromJson name version) = some (.ok (some r)) := by
  have e : keep r = r := by
    have e1 : keep32 r.version = r.version := by unfold keep32; omega
    have e2 : keep32 r.serial = r.serial := by unfold keep32; omega
    have e3 : r.os.map Json.Os.keep = r.os := by
      cases ho : r.os with
      | none => rfl
      | some os => rw [Option.map_some, h6 os ho]
    have e4 : r.packages.map Json.Rpm.keepPackage = r.packages := by
      conv_rhs => rw [← List.map_id r.packages]
      exact List.map_congr_left fun p hp => h7 p hp
    have e5 : r.stacktrace.map keepTrace = r.stacktrace := by
      cases ht : r.stacktrace with
      | none => rfl
      | some t => rw [Option.map_some, h8 t ht]
    have e6 : (if r.type = .gdb then .invalid else r.type) = r.type := by
      rw [if_neg]
      rcases h5 with h | h
      · intro e; rw [e] at h; simp [readable] at h
      · rw [h.1]; decide
    have e7 : (if readable r.type then r.stacktrace else none) = r.stacktrace := by
      rcases h5 with h | h
      · rw [if_pos h]
      · rw [h.2, ite_self]
    unfold keep
    rw [e1, e2, e3, e4, e5, e6, e7, ← h3, ← h4]
  have := C48_read_back r h name version
  rwa [e] at this

/-- A report. -/
def example1 : UReport :=
  { type := .python, reporterName := c!"satyr", reporterVersion := c!"0.43",
    os := some { name := some c!"fedora", version := some c!"40" }, component := some c!"a \"b\"",
    packages := [{ name := some c!"bash", version := some c!"5", release := some c!"1" }],
    stacktrace := some (.python { exceptionName := some c!"KeyError",
                                  frames := [{ fileName := some c!"x.py", fileLine := 3, functionName := some c!"f" }] }),
    auth := [(c!"k", c!"v"), (c!"l", c!"w")], serial := 7 }

theorem example1_wf : WF example1 where
  name := by decide
  version := by decide
  auth := by decide
  writable := fun t h => by
    cases h
    refine ⟨Or.inl (by simp), fun f hf => ?_⟩
    rw [List.mem_singleton] at hf
    subst hf
    simp [Python.Some]
  trace := fun _ => ⟨_, rfl, trivial, fun f h => by cases h; simp, trivial⟩

example : ∃ s, toJson example1 = .ok s ∧
    (parse s).map (fromJson c!"satyr" c!"0.43") = some (.ok (some (keep example1))) :=
  C48_read_back _ example1_wf _ _

example : ∃ s, toJson example1 = .ok s ∧ (parse s).map (fromJson c!"satyr" c!"0.43") = some (.ok (some example1)) :=
  C48_round_trip_partial _ example1_wf _ _ (by decide) (by decide) rfl rfl (Or.inl rfl)
    (fun os h => by cases h; decide +kernel) (by decide +kernel) (fun t h => by cases h; decide +kernel)

/-- C48 does not hold for the user: they are looked for in the wrong place. -/
theorem C48_not_user : ∃ r, WF r ∧ r.userRoot = true ∧ ∀ name version, ∃ s r', toJson r = .ok s ∧
    (parse s).map (fromJson name version) = some (.ok (some r')) ∧ r'.userRoot = false := by
  refine ⟨{ example1 with userRoot := true }, ?_, rfl, fun name version => ?_⟩
  · exact ⟨example1_wf.name, example1_wf.version, example1_wf.auth, example1_wf.writable, example1_wf.trace⟩
  · obtain ⟨s, h1, h2⟩ := C48_read_back { example1 with userRoot := true }
      ⟨example1_wf.name, example1_wf.version, example1_wf.auth, example1_wf.writable, example1_wf.trace⟩ name version
    exact ⟨s, _, h1, h2, rfl⟩

/-- The same for a user who is not local. -/
theorem C48_not_remote_user (r : UReport) (h : WF r) (hl : r.userLocal = false) (name version : Str) : ∃ s r',
    toJson r = .ok s ∧ (parse s).map (fromJson name version) = some (.ok (some r')) ∧ r'.userLocal ≠ r.userLocal := by
  obtain ⟨s, h1, h2⟩ := C48_read_back r h name version
  exact ⟨s, _, h1, h2, by rw [hl]; simp [keep]⟩

/-- C48 does not hold for reports of type JavaScript: the stack trace is not read. -/
theorem C48_not_javascript (r : UReport) (h : WF r) (ht : r.type = .javascript) (name version : Str) : ∃ s r',
    r.stacktrace ≠ none ∧ toJson r = .ok s ∧ (parse s).map (fromJson name version) = some (.ok (some r')) ∧
    r'.stacktrace = none := by
  obtain ⟨s, h1, h2⟩ := C48_read_back r h name version
  refine ⟨s, _, ?_, h1, h2, by simp [keep, ht, readable]⟩
  obtain ⟨t, h3, -⟩ := h.trace (by rw [ht]; rfl)
  simp [h3]

/-- A report with a JavaScript stack trace. -/
def example2 : UReport :=
  { type := .javascript, reporterName := c!"satyr", reporterVersion := c!"0.43",
    stacktrace := some (.js { exceptionName := some c!"TypeError", frames := [{ fileName := some c!"x.js", fileLine := 3 }] }) }

theorem example2_wf : WF example2 where
  name := by decide
  version := by decide
  auth := by decide
  writable := fun t h => by
    cases h
    refine ⟨Or.inl (by simp), fun f hf => ?_⟩
    rw [List.mem_singleton] at hf
    subst hf
    simp [Js.Some]
  trace := fun _ => ⟨_, rfl, trivial, fun f h => by cases h; simp, trivial⟩

example := C48_not_javascript example2 example2_wf rfl c!"satyr" c!"0.43"

/-- C48 does not hold for a reporter with a quotation mark in its name: what is written is not JSON. -/
theorem C48_not_reporter : ∃ r s, r.stacktrace = none ∧ toJson r = .ok s ∧ parse s = none :=
  ⟨{ reporterName := c!"a\"b", reporterVersion := c!"1" }, _, rfl, rfl, by decide +kernel⟩

/-- C48 does not hold for an empty stack trace of Python: what is written has a comma before a closing brace, which JSON does not allow
(and json-c, but not every other reader, takes). -/
theorem C48_not_empty_stacktrace : ∃ r s, r.type = .python ∧ r.stacktrace = some (.python {}) ∧ toJson r = .ok s ∧
    c!",}" <:+: s ∧ (parse s).map (fromJson c!"a" c!"1") = some (.ok (some { r with userRoot := false, userLocal := true })) :=
  ⟨{ type := .python, reporterName := c!"a", reporterVersion := c!"1", stacktrace := some (.python {}) }, _, rfl, rfl, rfl,
    by decide +kernel, by decide +kernel⟩

/-- C48: without a stack trace, a null pointer is read for a report of a type other than invalid and gdb. -/
theorem C48_not_missing_stacktrace (r : UReport) (h : r.type.supported = true) (ht : r.stacktrace = none) : toJson r = .ub := by
  rw [toJson, reasonText, if_pos h, ht]
  rfl

/-- C48: a report of type gdb that has a stack trace of gdb cannot be written. -/
theorem C48_not_gdb (r : UReport) (h : r.type = .gdb) (t : GdbTrace) (ht : r.stacktrace = some (.gdb t)) : toJson r = .abort := by
  rw [toJson, reasonText, if_neg (by rw [h]; decide), Out.bind_ok, problemText, ht]
  rfl

/-- C48 does not hold for repeated authentication keys: one of the entries is lost. -/
theorem C48_not_auth : ∃ r s r', toJson r = .ok s ∧ (parse s).map (fromJson c!"satyr" c!"0") = some (.ok (some r')) ∧
    r.auth = [(c!"k", c!"v"), (c!"k", c!"w")] ∧ r'.auth = [(c!"k", c!"w")] :=
  ⟨{ reporterName := c!"a", reporterVersion := c!"1", auth := [(c!"k", c!"v"), (c!"k", c!"w")] }, _,
    { reporterName := c!"a", reporterVersion := c!"1", auth := [(c!"k", c!"w")] }, rfl,
    by decide +kernel, rfl, rfl⟩

end Satyr.Report
