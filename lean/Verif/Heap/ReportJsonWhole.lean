import Verif.Heap.ReportJsonLemmas
/-!
# Reading reports from JSON: the whole report, for C145
-/
namespace Satyr.Heap
open Satyr.CStr
open Satyr.Json
open Satyr.Frames
open Satyr.Report (ReportType typeFromString entries UReport traceFromJson)

/-- What the problem gives. -/
abbrev ProblemValue := ReportType × Option Str × (Bool × Bool) × Nat × Option Report.Stacktrace

section
variable (A : Allocator) {j v : Value} {m₀ m : Mem} {p : Ptr} (err : Option Ptr) {Q : Part → Prop}

/-- The report after the problem. -/
def problemPart (n : Nat) (o : Option Str × Option Str) (sa sb : Chain) (w : Ptr) (q : ProblemValue) : Part :=
  { data := [(n : Int), q.1.code, bit q.2.2.1.1, bit q.2.2.1.2, (q.2.2.2.1 : Int)], texts := [q.2.1, o.1, o.2], a := sa, b := sb, c := traceChain w q.2.2.2.2 }

def ProblemBuilt (j : Value) (m₀ : Mem) (p : Ptr) (n : Nat) (o : Option Str × Option Str) (sa sb : Chain) (q : ProblemValue) (m : Mem) : Prop :=
  ∃ w, Built .report j m₀ m p (problemPart n o sa sb w q) ∧ CrashAt m p q.2.2.2.2

theorem user_num (j : Value) : ∀ f, user = .data f → (f j).toOption = (Report.readUser j false true).map fun u => [bit u.1, bit u.2] := by
  intro f hf
  cases hf
  dsimp only
  unfold Report.readUser
  cases Json.get j c!"user" with
  | none => rfl
  | some u =>
    dsimp only
    split
    · rfl
    · cases readBool u c!"root" false with
      | none => rfl
      | some a =>
        cases readBool u c!"local" true with
        | none => rfl
        | some b => cases a <;> cases b <;> rfl

theorem rest_segment {type : ReportType} {n : Nat} {o : Option Str × Option Str} {sa sb : Chain} (hv : weight v < weight j)
    (h : Built .report j m₀ m p { data := [(n : Int)], texts := [none, o.1, o.2], a := sa, b := sb })
    (hq : traceKind type = none ∨ ∃ t, traceFromJson type v = .ok (some t)) {tr} (htr : traceFromJson type v = .ok tr)
    (hQ : ∀ y : Part, y.texts[1]? = some o.1 → y.texts[2]? = some o.2 → Q y) :
    Segment (Failed .report j m₀ p err Q) (ProblemBuilt j m₀ p n o sa sb) err
      ((readStr v c!"component" none).bind fun c => (Report.readUser j false true).bind fun u => (readU32 v c!"serial" 0).bind fun s =>
        some (type, c, u, s, tr))
      (problemRest A (room j) p j v type ⟨m, err⟩) := by
  have hQ' : ∀ (c : Option Str) (y : Part), y.texts = [c, o.1, o.2] → Q y := fun c y hy => hQ y (by rw [hy]; rfl) (by rw [hy]; rfl)
  unfold problemRest
  refine (text_segment A err (by omega) (.inl rfl) c!"component" .componentName (by decide) rfl h (hQ' none)).andThen fun c m1 _ h1 => ?_
  have h1 : Built .report j m₀ m1 p { data := [(n : Int)], texts := [c, o.1, o.2], a := sa, b := sb } := by cases c <;> exact h1
  have s2 := data_segment A err (v := v) (Q := Q) (by omega) (.inl rfl) (fun _ => .ok [type.code]) (some ()) (fun _ => [type.code]) rfl h1 (hQ' c)
  refine Segment.andThen (f := fun _ => (Report.readUser j false true).bind fun u => (readU32 v c!"serial" 0).bind fun s => some (type, c, u, s, tr)) s2 fun _ m2 _ h2 => ?_
  refine (data_segment A err (Nat.le_refl _) (.inl rfl) _ _ _ (user_num j _ rfl) h2 (hQ' c)).andThen fun u m3 _ h3 => ?_
  refine (data_segment A err (by omega) (.inl rfl) _ _ _ (u32_num v c!"serial" 0 _ rfl) h3 (hQ' c)).andThen fun s m4 _ h4 => ?_
  obtain ⟨o', ho, h5⟩ := readTrace_spec A err hv h4 rfl hq
  rw [htr] at ho
  cases ho
  rcases h5 with e | ⟨m5, w, e, hb, hcr⟩
  · exact .inl e
  · exact .inr ⟨m5, e, w, hb, hcr⟩

theorem set_none_eq (m : Mem) (q : Ptr) : m.set q none = erase m [q] := by
  funext y
  by_cases hy : y = q
  · subst hy; rw [set_eq]; simp [erase]
  · rw [set_ne _ _ hy]; simp [erase, hy]

/-- Freeing a text that was there at the beginning. -/
theorem freed_segment {q : Ptr} {c : Cell} {n : Nat} {o : Option Str × Option Str} {sa sb : Chain} {v : Option ProblemValue} {out : Out (Bool × State)} (hq : m₀ q = none) (hq0 : q ≠ 0)
    (h : Segment (Failed .report j (m₀.set q (some c)) p err Q) (ProblemBuilt j (m₀.set q (some c)) p n o sa sb) err v out) :
    Segment (Failed .report j m₀ p err Q) (ProblemBuilt j m₀ p n o sa sb) err v
      (out.bind fun (ok, s) => (freeBlock s.mem q).bind fun m => .ok (ok, ⟨m, s.err⟩)) := by
  have key : ∀ {m x}, Built .report j (m₀.set q (some c)) m p x → m q = some c := by
    intro m x hb
    obtain ⟨_, r, fs, fa, fb, fc, fe, _, _, _, _, _, _, _, _, _, _, _, hadds⟩ := hb
    rw [hadds.same q fun hm => ?_, set_eq]
    have := hadds.fresh q hm
    rw [set_eq] at this
    cases this
  rcases h with e | h
  · rw [e]; exact .inl rfl
  · cases v with
    | none =>
      obtain ⟨s, e, msg, m1, x, hb, hx, hr⟩ := h
      rw [e]
      simp only [bind_ok, freeBlock]
      have hs : s.mem q = some c := by rw [hr.ext q (by rw [key hb]; simp), key hb]
      rw [if_neg hq0, hs]
      simp only [bind_ok, set_none_eq]
      have hA : Adds (erase m1 [q]) m1 [q] :=
        ⟨by simp, fun y hy => if_pos hy, fun y hy => by rw [List.mem_singleton.1 hy, key hb]; simp, fun y hy => (if_neg hy).symm⟩
      exact .inr ⟨_, rfl, msg, erase m1 [q], x, hb.without hq, hx, hr.erase hA⟩
    | some a =>
      obtain ⟨m1, e, w, hb, hcr⟩ := h
      rw [e]
      simp only [bind_ok, freeBlock]
      rw [if_neg hq0, key hb]
      simp only [bind_ok, set_none_eq]
      refine .inr ⟨_, rfl, w, hb.without hq, hcr.keep hb rfl (fun y hy _ _ => ?_) ?_⟩
      · exact if_neg fun h => by rw [List.mem_singleton.1 h, set_eq] at hy; cases hy
      · obtain ⟨_, r, fs, fa, fb, fc, fe, _, h1, _, _, _, _, _, _, _, _, _, hadds⟩ := hb
        refine ⟨r, r, h1, ?_, rfl⟩
        rw [← h1]
        refine if_neg fun h => ?_
        have := hadds.fresh p (by simp)
        rw [List.mem_singleton.1 h, set_eq] at this
        cases this

theorem problem_segment {n : Nat} {o : Option Str × Option Str} {sa sb : Chain}
    (h : Built .report j m₀ m p { data := [(n : Int)], texts := [none, o.1, o.2], a := sa, b := sb })
    (hq : ∀ v t, get j c!"problem" = some v → readStr v c!"type" none = some t →
      traceKind (.ofCode (typeFromString t)) = none ∨ ∃ t', traceFromJson (.ofCode (typeFromString t)) v = .ok (some t'))
    (hQ : ∀ y : Part, y.texts[1]? = some o.1 → y.texts[2]? = some o.2 → Q y) :
    ∃ pv, Report.readProblemTrace j = .ok pv ∧
      Segment (Failed .report j m₀ p err Q) (ProblemBuilt j m₀ p n o sa sb) err pv (readProblem A (room j) p j ⟨m, err⟩) := by
  have hQ' : ∀ (y : Part), y.texts = [none, o.1, o.2] → Q y := fun y hy => hQ y (by rw [hy]; rfl) (by rw [hy]; rfl)
  unfold Report.readProblemTrace readProblem
  cases hg : Json.get j c!"problem" with
  | none =>
    refine ⟨_, rfl, ?_⟩
    rcases data_segment A err (v := j) (Q := Q) (Nat.le_refl _) (.inl rfl) (fun _ => .ok [0, 0, 1, 0]) (some ()) (fun _ => [0, 0, 1, 0]) rfl h hQ' with e | ⟨m', e, hb⟩
    · exact .inl e
    · exact .inr ⟨m', e, 0, hb, CrashAt.none _ _⟩
  | some v =>
    dsimp only
    have hw := weight_get hg
    unfold Report.readProblem
    cases ho : isObject v with
    | false =>
      rw [if_pos rfl, if_pos rfl]
      exact ⟨none, rfl, refuse_segment A err _ h hQ'⟩
    | true =>
      rw [if_neg (by simp), if_neg (by simp)]
      have fin : ∀ t, readStr v c!"type" none = some t → ∀ (m₁ m₂ : Mem),
          Built .report j m₁ m₂ p { data := [(n : Int)], texts := [none, o.1, o.2], a := sa, b := sb } →
          ∃ pv, (match ((readStr v c!"type" none).bind fun type => (readStr v c!"component" none).bind fun component =>
              (Report.readUser j false true).bind fun user => (readU32 v c!"serial" 0).bind fun serial =>
              some (ReportType.ofCode (typeFromString type), component, user, serial)) with
            | none => Out.ok none
            | some (type, component, user, serial) => do
              let trace ← traceFromJson type v
              return some (type, component, user, serial, trace)) = Out.ok pv ∧
            Segment (Failed .report j m₁ p err Q) (ProblemBuilt j m₁ p n o sa sb) err pv
              (problemRest A (room j) p j v (.ofCode (typeFromString t)) ⟨m₂, err⟩) := by
        intro t ht m₁ m₂ h'
        have hq1 := hq v t hg ht
        obtain ⟨tr, htr⟩ : ∃ tr, traceFromJson (.ofCode (typeFromString t)) v = .ok tr := by
          rcases hq1 with h1 | ⟨t', h1⟩
          · refine ⟨none, ?_⟩
            generalize ReportType.ofCode (typeFromString t) = ty at h1
            cases ty <;> first | rfl | (cases h1)
          · exact ⟨_, h1⟩
        refine ⟨_, ?_, rest_segment A err hw h' hq1 htr hQ⟩
        rw [ht, Option.bind_some]
        cases readStr v c!"component" none with
        | none => rfl
        | some c =>
          cases Report.readUser j false true with
          | none => rfl
          | some u =>
            cases readU32 v c!"serial" 0 with
            | none => rfl
            | some s =>
              simp only [Option.bind_some]
              rw [htr]
              rfl
      cases hgt : Json.get v c!"type" with
      | none =>
        exact fin none (by unfold readStr; rw [hgt]) m₀ m h
      | some u =>
        cases u with
        | str t =>
          dsimp only
          have ht : readStr v c!"type" none = some (some t) := by unfold readStr; rw [hgt]
          rcases alloc_spec A (.text t) m with e | ⟨q, e, hq0, hA⟩
          · obtain ⟨pv, h1, _⟩ := fin (some t) ht m₀ m h
            exact ⟨pv, h1, .inl (by rw [e]; rfl)⟩
          · rw [e]
            simp only [bind_ok]
            obtain ⟨pv, h1, h2⟩ := fin (some t) ht _ _ (h.rebase hA (set_eq _ _ _))
            have hmq : m₀ q = none := by
              obtain ⟨_, r, fs, fa, fb, fc, fe, _, _, _, _, _, _, _, _, _, _, _, hadds⟩ := h
              have hm := hA.fresh q (by simp)
              by_cases hqf : q ∈ p :: (fs ++ (fa ++ (fb ++ (fc ++ fe))))
              · exact absurd hm (hadds.used q hqf)
              · rw [← hadds.same q hqf]; exact hm
            exact ⟨pv, h1, freed_segment err hmq hq0 h2⟩
        | _ =>
          refine ⟨none, ?_, refuse_segment A err _ h hQ'⟩
          have ht : readStr v c!"type" none = none := by unfold readStr; rw [hgt]
          rw [ht]; rfl
end

/-- Reading that is to give `v`. -/
def ReportOutcome (j : Value) (m : Mem) (err : Option Ptr) (v : Option UReport) (o : Out (Ptr × State)) : Prop :=
  o = .abort ∨ match v with
  | none => ∃ msg s, o = .ok (0, s) ∧ Reported m err msg s
  | some r => ∃ p m' w, o = .ok (p, ⟨m', err⟩) ∧ Built .report j m m' p (reportPart r (given j c!"name") (given j c!"version") w) ∧ CrashAt m' p r.stacktrace

theorem problemTrace_ok {j : Value} (hq : ∀ v t, get j c!"problem" = some v → readStr v c!"type" none = some t →
      traceKind (.ofCode (typeFromString t)) = none ∨ ∃ t', traceFromJson (.ofCode (typeFromString t)) v = .ok (some t')) :
    ∃ pv, Report.readProblemTrace j = .ok pv := by
  unfold Report.readProblemTrace
  cases hg : Json.get j c!"problem" with
  | none => exact ⟨_, rfl⟩
  | some v =>
    dsimp only
    cases hr : Report.readProblem j v with
    | none => exact ⟨_, rfl⟩
    | some r =>
      obtain ⟨type, c, u, s⟩ := r
      have ht : ∃ t, readStr v c!"type" none = some t ∧ type = .ofCode (typeFromString t) := by
        unfold Report.readProblem at hr
        split at hr
        · cases hr
        · cases h1 : readStr v c!"type" none with
          | none => rw [h1] at hr; cases hr
          | some t =>
            rw [h1, Option.bind_some] at hr
            cases h2 : readStr v c!"component" none with
            | none => rw [h2] at hr; cases hr
            | some c' =>
              rw [h2, Option.bind_some] at hr
              cases h3 : Report.readUser j false true with
              | none => rw [h3] at hr; cases hr
              | some u' =>
                rw [h3, Option.bind_some] at hr
                cases h4 : readU32 v c!"serial" 0 with
                | none => rw [h4] at hr; cases hr
                | some s' => rw [h4] at hr; cases hr; exact ⟨t, rfl, rfl⟩
      obtain ⟨t, ht, rfl⟩ := ht
      rcases hq v t hg ht with h1 | ⟨t', h1⟩
      · refine ⟨some (.ofCode (typeFromString t), c, u, s, none), ?_⟩
        dsimp only
        generalize ReportType.ofCode (typeFromString t) = ty at h1
        cases ty <;> first | rfl | (cases h1)
      · exact ⟨some (.ofCode (typeFromString t), c, u, s, some t'), by dsimp only; rw [h1]; rfl⟩

/-- The report of its parts. -/
def reportOf (name version : Str) (x : Nat × (Option Str × Option Str) × Option Satyr.Os.OperatingSystem × List Satyr.Rpm.Package × ProblemValue × List (Str × Str)) :
    UReport :=
  { version := x.1, type := x.2.2.2.2.1.1, reporterName := x.2.1.1.getD name, reporterVersion := x.2.1.2.getD version,
    userRoot := x.2.2.2.2.1.2.2.1.1, userLocal := x.2.2.2.2.1.2.2.1.2, os := x.2.2.1, component := x.2.2.2.2.1.2.1, packages := x.2.2.2.1,
    stacktrace := x.2.2.2.2.1.2.2.2.2, auth := x.2.2.2.2.2, serial := x.2.2.2.2.1.2.2.2.1 }

theorem readReport_spec (A : Allocator) (name version : Str) (j : Value) (m : Mem) (err : Option Ptr) (hq : Quiet name version j) :
    ∃ v, Report.fromJson name version j = .ok v ∧ ReportOutcome j m err v (readReport A j ⟨m, err⟩) := by
  cases ho : isObject j with
  | false =>
    refine ⟨none, by unfold Report.fromJson Report.readHead; rw [if_pos ho], ?_⟩
    unfold readReport
    rw [if_pos ho]
    rcases setError_spec A (typeError c!"root value" c!"object") ⟨m, err⟩ with e | ⟨s, e, hs⟩
    · rw [e]; exact .inl rfl
    · rw [e]; exact .inr ⟨_, s, rfl, hs⟩
  | true =>
    obtain ⟨pv, hpv⟩ := problemTrace_ok hq.trace
    have hval : Report.fromJson name version j = .ok (((readU32 j c!"ureport_version" 2).bind fun n => (reporterTexts j).bind fun o =>
        (Report.readOs j).bind fun os => (Report.readPackages j).bind fun pk => pv.bind fun q => (Report.readAuth j).map fun au =>
        (n, o, os, pk, q, au)).map (reportOf name version)) := by
      unfold Report.fromJson Report.readHead
      rw [if_neg (by simp [ho]), reporterTexts_eq, hpv]
      cases readU32 j c!"ureport_version" 2 with
      | none => rfl
      | some n =>
        cases reporterTexts j with
        | none => rfl
        | some o =>
          cases Report.readOs j with
          | none => rfl
          | some os =>
            cases Report.readPackages j with
            | none => rfl
            | some pk =>
              cases pv with
              | none => rfl
              | some q => cases Report.readAuth j <;> rfl
    refine ⟨_, hval, ?_⟩
    unfold readReport
    rw [if_neg (by simp [ho])]
    rcases alloc_spec A (.record { kind := .report, texts := List.replicate (texts .report).length 0 }) m with e | ⟨p, e, hp, hA⟩
    · rw [e]; exact .inl rfl
    · rw [e]
      simp only [bind_ok]
      have h0 := built_new j hp hA
      let Q : Part → Prop := fun y => Clean j → y.texts[1]? = some none ∧ y.texts[2]? = some none
      have hQ0 : ∀ y : Part, (Clean j → y.texts = [none, none, none]) → Q y := fun y hy hc => by rw [hy hc]; exact ⟨rfl, rfl⟩
      have seg : Segment (Failed .report j m p err Q) (fun x m' => ∃ w, Built .report j m m' p
            (reportPart (reportOf name version x) (given j c!"name") (given j c!"version") w) ∧ CrashAt m' p (reportOf name version x).stacktrace) err
          ((readU32 j c!"ureport_version" 2).bind fun n => (reporterTexts j).bind fun o =>
            (Report.readOs j).bind fun os => (Report.readPackages j).bind fun pk => pv.bind fun q => (Report.readAuth j).map fun au =>
            (n, o, os, pk, q, au))
          (andThen (runStep A noItems (room j) p .report j ⟨m.set p (some (.record { kind := .report, texts := List.replicate (texts .report).length 0 })), err⟩
              (u32 c!"ureport_version" 2)) fun s =>
            andThen (readReporter A (room j) p j s) fun s =>
            andThen (readOs A p j s) fun s =>
            andThen (readPackagesMember A p j s) fun s =>
            andThen (readProblem A (room j) p j s) fun s => readAuth A p j s) := by
        refine (data_segment A err (Nat.le_refl _) (.inl rfl) _ _ _ (u32_num j c!"ureport_version" 2 _ rfl) h0 fun y hy => hQ0 y fun _ => hy).andThen
          fun n m1 _ h1 => ?_
        refine (reporter_segment A err [(n : Int)] h1 hQ0).andThen fun o m2 hr h2 => ?_
        obtain ⟨hg1, hg2⟩ := reporterTexts_given (a := o.1) (b := o.2) hr
        have hQ1 : ∀ y : Part, y.texts[1]? = some o.1 → y.texts[2]? = some o.2 → Q y := fun y e1 e2 hc => by
          rw [e1, e2, ← hg1, ← hg2, hc.1, hc.2]; exact ⟨rfl, rfl⟩
        have hQ2 : ∀ y : Part, y.texts = [none, o.1, o.2] → Q y := fun y hy => hQ1 y (by rw [hy]; rfl) (by rw [hy]; rfl)
        refine (os_segment A err h2 rfl hq.os hQ2).andThen fun os m3 _ h3 => ?_
        refine (packages_segment A err h3 rfl hQ2).andThen fun pk m4 _ h4 => ?_
        obtain ⟨pv', hpv', hseg⟩ := problem_segment A err h4 hq.trace hQ1
        rw [hpv] at hpv'
        cases hpv'
        refine hseg.andThen fun q m5 _ ⟨w, h5, hcr⟩ => ?_
        refine (auth_segment A err h5 rfl rfl hcr hq.auth fun y hy => hQ1 y (by rw [hy]; rfl) (by rw [hy]; rfl)).map fun au m6 _ ⟨h6, hcr6⟩ => ?_
        refine ⟨w, ?_, hcr6⟩
        rw [hg1, hg2]
        exact h6
      rcases seg with e | h1
      · rw [e]; exact .inl rfl
      · generalize ((readU32 j c!"ureport_version" 2).bind fun n => (reporterTexts j).bind fun o =>
          (Report.readOs j).bind fun os => (Report.readPackages j).bind fun pk => pv.bind fun q => (Report.readAuth j).map fun au =>
          (n, o, os, pk, q, au)) = v at h1 hval
        cases v with
        | none =>
          obtain ⟨s, e, msg, m1, x, hb, hx, hs⟩ := h1
          rw [e]
          simp only [bind_ok]
          have hc : Clean j := by
            rcases hq.reporter with h | ⟨r, h⟩
            · exact h
            · rw [hval] at h; cases h
          obtain ⟨m₁, hb1, hs1⟩ := Reported.rebase hb hs
          rw [if_neg (by simp), hb1.free' (fun _ => hx hc) false]
          exact .inr ⟨msg, _, rfl, hs1⟩
        | some x =>
          obtain ⟨m1, e, w, hb, hcr⟩ := h1
          rw [e]
          exact .inr ⟨p, m1, w, rfl, hb, hcr⟩

end Satyr.Heap
