import Verif.Heap.ReportJson
/-!
# Reading reports from JSON: lemmas for C145
-/
namespace Satyr.Heap
open Satyr.CStr
open Satyr.Json
open Satyr.Frames
open Satyr.Report (ReportType typeFromString entries UReport traceFromJson addEntry)

/-! ## Specification -/

/-- Neither text of the reporter is in the document. -/
def Clean (j : Value) : Prop := given j c!"name" = none ∧ given j c!"version" = none

/-- The document has nothing wrong that is reported and then ignored, and if it cannot be read, it has no reporter. -/
structure Quiet (name version : Str) (j : Value) : Prop where
  os : ∀ v, get j c!"os" = some v → QuietOs v
  trace : ∀ v t, get j c!"problem" = some v → readStr v c!"type" none = some t →
    traceKind (.ofCode (typeFromString t)) = none ∨ ∃ t', traceFromJson (.ofCode (typeFromString t)) v = .ok (some t')
  auth : ∀ l, get j c!"auth" = some (.obj l) → ∀ e ∈ l, ∃ s, e.2 = .str s
  reporter : Clean j ∨ ∃ r, Report.fromJson name version j = .ok (some r)

/-! ## Lemmas: members -/

theorem Built.crashless {j m₀ m p x} (h : Built .report j m₀ m p x) : x.crash = none := by
  cases hc : x.crash with
  | none => rfl
  | some i => have := (h.1.crash i hc).2; cases this

theorem attachA {j m₀ m p x m' g c q} (h : Built .report j m₀ m p x) (hx : x.a = .nil) (hA : Adds m m' g) (hh : Holds m' c true q g)
    (ht : c.Typed [.system]) (hone : c.Single) (hs : c.size < weight j) (err : Option Ptr) :
    ∃ m'', change p (fun r => { r with a := q }) ⟨m', err⟩ = .ok (true, ⟨m'', err⟩) ∧ Built .report j m₀ m'' p { x with a := c } := by
  have hcr := h.crashless
  obtain ⟨hok, r, fs, fa, fb, fc, fe, h0, h1, h2, h3, h4, ha, hb, hc, he, hn, hw, hadds⟩ := h.more hA
  rw [hx] at ha
  obtain ⟨_, rfl⟩ := ha
  refine ⟨m'.set p (some (.record { r with a := q })), by simp only [change, readRecord, h1, bind_ok, writeRecord], ?_⟩
  refine Built.rebuild (fs := fs) (fa := g) (fb := fb) (fc := fc) (fe := fe) ⟨hok.length, ⟨ht, fun _ => hone⟩, hok.b, hok.c, hok.e, hs, hok.sizeB,
    hok.sizeC, hok.sizeE, by simp [hcr]⟩ h0 h2 h3 h4 hh hb hc he hn ?_ ?_
  · show r.crashThread = x.crash.elim 0 _
    simp only [hw, hcr, Option.elim]
  · refine hadds.perm ?_
    have := List.perm_append_comm (l₁ := fb ++ (fc ++ fe)) (l₂ := g)
    simpa using ((this.append_left fs).cons p)

theorem attachB {j m₀ m p x m' g c q} (h : Built .report j m₀ m p x) (hx : x.b = .nil) (hA : Adds m m' g) (hh : Holds m' c true q g)
    (ht : c.Typed [.package]) (hs : c.size ≤ weight j + 1) (err : Option Ptr) :
    ∃ m'', change p (fun r => { r with b := q }) ⟨m', err⟩ = .ok (true, ⟨m'', err⟩) ∧ Built .report j m₀ m'' p { x with b := c } := by
  have hcr := h.crashless
  obtain ⟨hok, r, fs, fa, fb, fc, fe, h0, h1, h2, h3, h4, ha, hb, hc, he, hn, hw, hadds⟩ := h.more hA
  rw [hx] at hb
  obtain ⟨_, rfl⟩ := hb
  refine ⟨m'.set p (some (.record { r with b := q })), by simp only [change, readRecord, h1, bind_ok, writeRecord], ?_⟩
  refine Built.rebuild (fs := fs) (fa := fa) (fb := g) (fc := fc) (fe := fe) ⟨hok.length, hok.a, ⟨ht, fun h => by cases h⟩, hok.c, hok.e, hok.sizeA, hs,
    hok.sizeC, hok.sizeE, by simp [hcr]⟩ h0 h2 h3 h4 ha hh hc he hn ?_ ?_
  · show r.crashThread = x.crash.elim 0 _
    simp only [hw, hcr, Option.elim]
  · refine hadds.perm ?_
    have := List.perm_append_comm (l₁ := fc ++ fe) (l₂ := g)
    simpa using (((this.append_left fa).append_left fs).cons p)

theorem attachC {j m₀ m p x m' g c q} (h : Built .report j m₀ m p x) (hx : x.c = .nil) (hA : Adds m m' g) (hh : Holds m' c true q g)
    (ht : c.Typed traces) (hone : c.Single) (hs : c.size ≤ 2 * weight j + 1) (err : Option Ptr) :
    ∃ (m'' : Mem) (r : Record), change p (fun r => { r with c := q }) ⟨m', err⟩ = .ok (true, ⟨m'', err⟩) ∧ Built .report j m₀ m'' p { x with c := c } ∧
      m'' = m'.set p (some (.record { r with c := q })) ∧ m p ≠ none := by
  have hcr := h.crashless
  have hmp : m p ≠ none := by obtain ⟨_, r, _, _, _, _, _, _, h1, _⟩ := h; rw [h1]; simp
  obtain ⟨hok, r, fs, fa, fb, fc, fe, h0, h1, h2, h3, h4, ha, hb, hc, he, hn, hw, hadds⟩ := h.more hA
  rw [hx] at hc
  obtain ⟨_, rfl⟩ := hc
  refine ⟨m'.set p (some (.record { r with c := q })), r, by simp only [change, readRecord, h1, bind_ok, writeRecord], ?_, rfl, hmp⟩
  refine Built.rebuild (fs := fs) (fa := fa) (fb := fb) (fc := g) (fe := fe) ⟨hok.length, hok.a, hok.b, ⟨ht, fun _ => hone⟩, hok.e, hok.sizeA, hok.sizeB,
    hs, hok.sizeE, by simp [hcr]⟩ h0 h2 h3 h4 ha hb hh he hn ?_ ?_
  · show r.crashThread = x.crash.elim 0 _
    simp only [hw, hcr, Option.elim]
  · refine hadds.perm ?_
    have := List.perm_append_comm (l₁ := fe) (l₂ := g)
    simpa using ((((this.append_left fb).append_left fa).append_left fs).cons p)

/-- What is not changed. -/
def Kept (m m' : Mem) (p : Ptr) : Prop :=
  (∀ y, y ≠ p → m y ≠ none → m' y = m y) ∧ ∃ r r', m p = some (.record r) ∧ m' p = some (.record r') ∧ r'.c = r.c

theorem Kept.trans {a b c : Mem} {p : Ptr} (h : Kept a b p) (h' : Kept b c p) : Kept a c p := by
  obtain ⟨h1, r, r1, e1, e2, e3⟩ := h
  obtain ⟨h2, r2, r3, e4, e5, e6⟩ := h'
  rw [e2] at e4
  cases e4
  refine ⟨fun y hy hn => ?_, r, r3, e1, e5, e6.trans e3⟩
  have := h1 y hy hn
  rw [h2 y hy (by rw [this]; exact hn), this]

theorem addAuth_spec (A : Allocator) {j m₀ m p x} (h : Built .report j m₀ m p x) (key value : Str) (hs : x.e.size + 1 ≤ weight j) (err : Option Ptr) :
    addAuth A p key value ⟨m, err⟩ = .abort ∨ ∃ m', addAuth A p key value ⟨m, err⟩ = .ok ⟨m', err⟩ ∧ Kept m m' p ∧
      Built .report j m₀ m' p { x with e := .cons .entry [] [some key, some value] 0 .nil .nil .nil .nil x.e } := by
  have hcr := h.crashless
  have hr0 : ∃ r0, m p = some (.record r0) := by obtain ⟨_, r, _, _, _, _, _, _, h1, _⟩ := h; exact ⟨r, h1⟩
  obtain ⟨r0, hr0⟩ := hr0
  unfold addAuth
  rcases alloc_spec A (.text key) m with e | ⟨q1, e, hq1, hA1⟩
  · rw [e]; exact .inl rfl
  · rw [e]
    simp only [bind_ok]
    rcases alloc_spec A (.text value) (m.set q1 (some (.text key))) with e | ⟨q2, e, hq2, hA2⟩
    · rw [e]; exact .inl rfl
    · rw [e]
      simp only [bind_ok]
      have hA12 := hA1.trans hA2
      have hp2 : ((m.set q1 (some (.text key))).set q2 (some (.text value))) p = some (.record r0) := by
        rw [hA12.ext p (by rw [hr0]; simp), hr0]
      simp only [readRecord, hp2, bind_ok]
      rcases alloc_spec A (.record { kind := .entry, texts := [q1, q2], next := r0.e })
        ((m.set q1 (some (.text key))).set q2 (some (.text value))) with e | ⟨q, e, hq, hA3⟩
      · rw [e]; exact .inl rfl
      · rw [e]
        simp only [bind_ok]
        have hA := hA12.trans hA3
        obtain ⟨hok, r, fs, fa, fb, fc, fe, h0, h1, h2, h3, h4, ha, hb, hc, he, hn, hw, hadds⟩ := h.more hA
        have hrr : r = r0 := by
          rw [hA.ext p (by rw [hr0]; simp), hr0] at h1
          injection h1 with h1
          injection h1 with h1
          exact h1.symm
        subst hrr
        have hk1 : (((m.set q1 (some (.text key))).set q2 (some (.text value))).set q
            (some (.record { kind := .entry, texts := [q1, q2], next := r.e }))) q1 = some (.text key) := by
          rw [hA3.ext q1 (hA12.used q1 (by simp)), hA2.ext q1 (hA1.used q1 (by simp)), set_eq]
        have hk2 : (((m.set q1 (some (.text key))).set q2 (some (.text value))).set q
            (some (.record { kind := .entry, texts := [q1, q2], next := r.e }))) q2 = some (.text value) := by
          rw [hA3.ext q2 (hA12.used q2 (by simp)), set_eq]
        have hent : Holds (((m.set q1 (some (.text key))).set q2 (some (.text value))).set q
            (some (.record { kind := .entry, texts := [q1, q2], next := r.e })))
            (.cons .entry [] [some key, some value] 0 .nil .nil .nil .nil x.e) true q (q :: ([q1, q2] ++ ([] ++ ([] ++ ([] ++ ([] ++ fe)))))) := by
          refine ⟨_, [q1, q2], [], [], [], [], fe, hq, set_eq _ _ _, rfl, rfl, rfl, .some hq1 hk1 (.some hq2 hk2 .nil), ⟨rfl, rfl⟩, ⟨rfl, rfl⟩,
            ⟨rfl, rfl⟩, ⟨rfl, rfl⟩, ?_, rfl⟩
          rw [if_pos rfl]
          exact he
        refine .inr ⟨(((m.set q1 (some (.text key))).set q2 (some (.text value))).set q
          (some (.record { kind := .entry, texts := [q1, q2], next := r.e }))).set p (some (.record { r with e := q })),
          by simp only [writeRecord, h1, bind_ok], ⟨fun y hy hny => ?_, r, _, hr0, set_eq _ _ _, rfl⟩, ?_⟩
        · rw [set_ne _ _ hy, hA.ext y hny]
        · refine Built.rebuild (r := { r with e := q }) (fs := fs) (fa := fa) (fb := fb) (fc := fc) (fe := q :: ([q1, q2] ++ ([] ++ ([] ++ ([] ++ ([] ++ fe))))))
            ⟨hok.length, hok.a, hok.b, hok.c, ?_, hok.sizeA, hok.sizeB, hok.sizeC, ?_, by simp [hcr]⟩ h0 h2 h3 h4 ha hb hc hent hn ?_ ?_
          · exact ⟨⟨by simp, rfl, hok.e.1, MemberOk.nil _ _, MemberOk.nil _ _, MemberOk.nil _ _, MemberOk.nil _ _⟩, fun h => by cases h⟩
          · simp only [Chain.size]; omega
          · show r.crashThread = x.crash.elim 0 _
            simp only [hw, hcr, Option.elim]
          · refine hadds.perm ?_
            have h5 : (fe ++ [q1, q2, q]).Perm (q :: q1 :: q2 :: fe) :=
              (List.perm_append_comm (l₁ := fe) (l₂ := [q1, q2, q])).trans (((List.Perm.swap q q2 fe).cons q1).trans (List.Perm.swap q q1 (q2 :: fe)))
            simpa using (((((h5.append_left fc).append_left fb).append_left fa).append_left fs).cons p)

theorem Kept.refl {j m₀ m p x} (h : Built .report j m₀ m p x) : Kept m m p := by
  obtain ⟨_, r, _, _, _, _, _, _, h1, _⟩ := h
  exact ⟨fun _ _ _ => rfl, r, r, h1, h1, rfl⟩

theorem authLoop_spec (A : Allocator) {j m₀ p} (err : Option Ptr) : ∀ (l : List (Str × Value)) (acc : List (Str × Str)) (x : Part) (m : Mem),
    (∀ e ∈ l, ∃ s, e.2 = Value.str s) → x.e = entryChain acc → x.e.size + l.length ≤ weight j → Built .report j m₀ m p x →
    authLoop A p l ⟨m, err⟩ = .abort ∨ ∃ m', authLoop A p l ⟨m, err⟩ = .ok ⟨m', err⟩ ∧ Kept m m' p ∧
      Built .report j m₀ m' p { x with e := entryChain (Report.readAuthLoop acc l) }
  | [], acc, x, m, _, hx, _, h => .inr ⟨m, rfl, Kept.refl h, by rw [Report.readAuthLoop, ← hx]; exact h⟩
  | (key, v) :: l, acc, x, m, hl, hx, hs, h => by
    obtain ⟨s, hv⟩ := hl (key, v) (by simp)
    have hv : v = .str s := hv
    subst hv
    rw [authLoop, Report.readAuthLoop]
    rw [List.length_cons] at hs
    rcases addAuth_spec A h key s (by omega) err with e | ⟨m1, e, hk, hb⟩
    · rw [e]; exact .inl rfl
    · rw [e]
      simp only [bind_ok]
      rcases authLoop_spec A err l ((key, s) :: acc) _ m1 (fun e he => hl e (by simp [he])) (by rw [hx]; rfl)
        (by simp only [Chain.size]; omega) hb with e | ⟨m2, e, hk2, hb2⟩
      · exact .inl e
      · exact .inr ⟨m2, e, hk.trans hk2, hb2⟩

theorem addEntry_spec (k : Str) (v : Value) : ∀ l : List (Str × Value), (addEntry k v l).length ≤ l.length + 1 ∧
    ∀ e ∈ addEntry k v l, e = (k, v) ∨ e ∈ l
  | [] => by simp [addEntry]
  | a :: l => by
    obtain ⟨h1, h2⟩ := addEntry_spec k v l
    rw [addEntry]
    split
    · refine ⟨by simp, fun e he => ?_⟩
      rcases List.mem_cons.1 he with h | h
      · exact .inl h
      · exact .inr (by simp [h])
    · refine ⟨by simp only [List.length_cons]; omega, fun e he => ?_⟩
      rcases List.mem_cons.1 he with h | h
      · exact .inr (by simp [h])
      · rcases h2 e h with h | h
        · exact .inl h
        · exact .inr (by simp [h])

theorem entries_spec (l : List (Str × Value)) : (entries l).length ≤ l.length ∧ ∀ e ∈ entries l, e ∈ l := by
  have : ∀ (l acc : List (Str × Value)), (l.foldl (fun acc m => addEntry m.1 m.2 acc) acc).length ≤ acc.length + l.length ∧
      ∀ e ∈ l.foldl (fun acc m => addEntry m.1 m.2 acc) acc, e ∈ acc ∨ e ∈ l := by
    intro l
    induction l with
    | nil => intro acc; simp
    | cons a l ih =>
      intro acc
      rw [List.foldl_cons]
      obtain ⟨h1, h2⟩ := ih (addEntry a.1 a.2 acc)
      obtain ⟨h3, h4⟩ := addEntry_spec a.1 a.2 acc
      refine ⟨by rw [List.length_cons]; omega, fun e he => ?_⟩
      rcases h2 e he with h | h
      · rcases h4 e h with h | h
        · exact .inr (by simp [h])
        · exact .inl h
      · exact .inr (by simp [h])
  simpa [entries] using this l []

theorem length_le_memberWeights (l : List (Str × Value)) : l.length ≤ memberWeights l := by
  induction l with
  | nil => simp [memberWeights]
  | cons v l ih => obtain ⟨k, v⟩ := v; have := weight_pos v; simp only [memberWeights, List.length_cons]; omega

/-! ## Lemmas: the stack trace -/


theorem modules_of_koops {j : Value} {t} (h : Koops.fromJson j = .ok (some t)) : ∃ o, Koops.modulesFromJson j = .ok o := by
  unfold Koops.fromJson at h
  split at h
  · cases h
  · cases hm : Koops.modulesFromJson j with
    | ok o => exact ⟨o, rfl⟩
    | abort => rw [hm] at h; cases h
    | ub => rw [hm] at h; cases h

theorem trace_gives (A : Allocator) {type : ReportType} {k : Kind} {v : Value} {t : Report.Stacktrace} (m : Mem) (err : Option Ptr)
    (hk : traceKind type = some k) (h : traceFromJson type v = .ok (some t)) :
    k = (traceOf t).1 ∧ k ∈ traces ∧ (slots k)[2]? = none ∧ (slots k)[3]? = none ∧ Gives k v m err (some (traceOf t).2) (read A 3 k v ⟨m, err⟩) := by
  cases type <;> first | (cases hk; done) | skip
  all_goals cases hk
  · have h : (Core.fromJson v).map Report.Stacktrace.core = some t := by injection h
    obtain ⟨t', h1, rfl⟩ := Option.map_eq_some_iff.1 h
    refine ⟨rfl, by decide, rfl, rfl, (read_spec A 3 _ v m err (level_le _) (by decide) (careful v err (by decide) (by decide))).gives ?_⟩
    rw [coreTrace_part 0 v, h1]; rfl
  · have h : (Python.fromJson v).map Report.Stacktrace.python = some t := by injection h
    obtain ⟨t', h1, rfl⟩ := Option.map_eq_some_iff.1 h
    refine ⟨rfl, by decide, rfl, rfl, (read_spec A 3 _ v m err (level_le _) (by decide) (careful v err (by decide) (by decide))).gives ?_⟩
    rw [pythonTrace_part 1 v, h1]; rfl
  · have h : ∃ o, Koops.fromJson v = .ok o ∧ o.map Report.Stacktrace.koops = some t := by
      unfold traceFromJson at h
      cases hf : Koops.fromJson v with
      | ok o => rw [hf] at h; exact ⟨o, rfl, by simpa [bind, Out.bind, pure] using h⟩
      | abort => rw [hf] at h; cases h
      | ub => rw [hf] at h; cases h
    obtain ⟨o, h1, h2⟩ := h
    obtain ⟨t', rfl, rfl⟩ := Option.map_eq_some_iff.1 h2
    refine ⟨rfl, by decide, rfl, rfl, (read_spec A 3 _ v m err (level_le _) (by decide) ⟨(fun h => by cases h), fun _ => modules_of_koops h1⟩).gives ?_⟩
    rw [koopsTrace_part 1 v h1]; rfl
  · have h : (Java.fromJson v).map Report.Stacktrace.java = some t := by injection h
    obtain ⟨t', h1, rfl⟩ := Option.map_eq_some_iff.1 h
    refine ⟨rfl, by decide, rfl, rfl, (read_spec A 3 _ v m err (level_le _) (by decide) (careful v err (by decide) (by decide))).gives ?_⟩
    rw [javaTrace_part 0 v, h1]; rfl
  · have h : (Ruby.fromJson v).map Report.Stacktrace.ruby = some t := by injection h
    obtain ⟨t', h1, rfl⟩ := Option.map_eq_some_iff.1 h
    refine ⟨rfl, by decide, rfl, rfl, (read_spec A 3 _ v m err (level_le _) (by decide) (careful v err (by decide) (by decide))).gives ?_⟩
    rw [rubyTrace_part 1 v, h1]; rfl

theorem CrashAt.keep {j m₀ m m' p t w} {x : Part} (h : CrashAt m p t) (hb : Built .report j m₀ m p x) (hx : x.c = traceChain w t)
    (hk : ∀ y, m₀ y = none → y ≠ p → m y ≠ none → m' y = m y)
    (hr : ∃ r r', m p = some (.record r) ∧ m' p = some (.record r') ∧ r'.c = r.c) : CrashAt m' p t := by
  intro t' ht
  obtain ⟨r, rt, h1, h2, h3, h4⟩ := h t' ht
  obtain ⟨_, r1, fs, fa, fb, fc, fe, g0, g1, _, _, _, _, _, hc, _, _, _, hadds⟩ := hb
  obtain ⟨r2, r', e1, e2, e3⟩ := hr
  rw [h1] at g1 e1
  cases g1
  cases e1
  subst ht
  rw [hx] at hc
  obtain ⟨rt', fs', fa', fb', fc', fe', fn', i0, i1, _, _, _, _, ha', _, _, _, _, hfc⟩ := hc
  rw [h2] at i1
  cases i1
  have hsub : ∀ y ∈ fc, m' y = m y := by
    intro y hy
    have hm : y ∈ p :: (fs ++ (fa ++ (fb ++ (fc ++ fe)))) := by simp [hy]
    refine hk y (hadds.fresh y hm) (fun e => ?_) (hadds.used y hm)
    subst e
    exact (List.nodup_cons.1 hadds.nodup).1 (by simp [hy])
  refine ⟨r', rt, e2, ?_, ?_, h4⟩
  · rw [e3, hsub _ (by rw [hfc]; simp), h2]
  · rw [h3]
    cases hcr : (traceOf t').2.crash with
    | none => rfl
    | some i => exact (nth_congr ha' (fun y hy => hsub y (by rw [hfc]; simp [hy])) (h4 i hcr)).1.symm

theorem CrashAt.none (m : Mem) (p : Ptr) : CrashAt m p .none := fun _ h => by cases h

theorem readTrace_spec (A : Allocator) {j v m₀ m p x} {type : ReportType} (err : Option Ptr) (hv : weight v < weight j) (h : Built .report j m₀ m p x)
    (hx : x.c = .nil) (hq : traceKind type = none ∨ ∃ t, traceFromJson type v = .ok (some t)) :
    ∃ o, traceFromJson type v = .ok o ∧ (readTrace A p v type ⟨m, err⟩ = .abort ∨
      ∃ m' w, readTrace A p v type ⟨m, err⟩ = .ok (true, ⟨m', err⟩) ∧ Built .report j m₀ m' p { x with c := traceChain w o } ∧ CrashAt m' p o) := by
  cases hk : traceKind type with
  | none =>
    refine ⟨none, by cases type <;> first | rfl | (cases hk), .inr ⟨m, 0, by rw [readTrace, hk], ?_, CrashAt.none _ _⟩⟩
    show Built .report j m₀ m p { x with c := .nil }
    rw [← hx]; exact h
  | some k =>
    rcases hq with hq | ⟨t, ht⟩
    · rw [hk] at hq; cases hq
    · refine ⟨some t, ht, ?_⟩
      obtain ⟨hkk, hmem, hs2, hs3, hg⟩ := trace_gives A m err hk ht
      rw [readTrace, hk]
      dsimp only
      rcases hg with e | ⟨q, m1, e, hb⟩
      · rw [e]; exact .inl rfl
      · rw [e]
        simp only [bind_ok]
        have hok := hb.1
        obtain ⟨_, rt, fs, fa, fb, fc, fe, i0, i1, i2, i3, i4, ia, ib, ic, ie, ien, iw, iadds⟩ := id hb
        obtain ⟨rt', g, h1, h2, h3, h4⟩ := hb.holds
        rw [i1] at h1
        cases h1
        have hc0 : (traceOf t).2.c = .nil := by have := hok.c; unfold MemberOk at this; rw [hs2] at this; exact this
        have he0 : (traceOf t).2.e = .nil := by have := hok.e; unfold MemberOk at this; rw [hs3] at this; exact this
        have hty := hok.typed rt.crashThread
        obtain ⟨m2, r, e2, hb2, hm2, hmp⟩ := attachC h hx h4 h3 ⟨hmem, hty.2⟩ rfl
          (by have := hok.sizeA; have := hok.sizeB; simp only [Part.chain, Chain.size, hc0, he0]; omega) err
        rw [e2]
        rw [hkk] at hb2
        refine .inr ⟨m2, rt.crashThread, rfl, hb2, fun t' ht' => ?_⟩
        cases ht'
        have hne : ∀ y ∈ q :: (fs ++ (fa ++ (fb ++ (fc ++ fe)))), y ≠ p := fun y hy e => hmp (e ▸ iadds.fresh y hy)
        refine ⟨{ r with c := q }, rt, by rw [hm2, set_eq], by rw [hm2]; exact (set_ne _ _ (hne q (by simp))).trans i1, ?_, fun i hi => (hok.crash i hi).1⟩
        rw [iw]
        cases hcr : (traceOf t).2.crash with
        | none => rfl
        | some i => exact (nth_congr ia (fun y hy => by rw [hm2]; exact set_ne _ _ (hne y (by simp [hy]))) (hok.crash i hcr).1).1.symm

/-! ## Lemmas: the parts of a report -/

/-- The texts of the reporter in the document. -/
def reporterTexts (j : Value) : Option (Option Str × Option Str) :=
  match get j c!"reporter" with
  | none => some (none, none)
  | some v => if isObject v = false then none else
    (readStr v c!"name" none).bind fun a => (readStr v c!"version" none).bind fun b => some (a, b)

theorem readStr_given {v : Value} {key : Str} {o} (h : readStr v key none = some o) :
    (match get v key with | some (.str s) => some s | _ => none) = o := by
  unfold readStr at h
  cases hg : Json.get v key with
  | none => rw [hg] at h; cases h; rfl
  | some u => rw [hg] at h; cases u <;> cases h; rfl

theorem readStr_default (v : Value) (key d : Str) : (readStr v key (some d)).map (fun o => o.getD d) = (readStr v key none).map fun o => o.getD d := by
  unfold readStr
  cases Json.get v key with
  | none => rfl
  | some u => cases u <;> rfl

theorem given_of {j v : Value} (key : Str) {o} (hg : get j c!"reporter" = some v) (h : readStr v key none = some o) : given j key = o := by
  unfold given
  rw [hg]
  exact readStr_given h

theorem reporterTexts_given {j : Value} {a b} (h : reporterTexts j = some (a, b)) : given j c!"name" = a ∧ given j c!"version" = b := by
  unfold reporterTexts at h
  cases hg : Json.get j c!"reporter" with
  | none => rw [hg] at h; cases h; unfold given; rw [hg]; exact ⟨rfl, rfl⟩
  | some v =>
    rw [hg] at h
    dsimp only at h
    split at h
    · cases h
    · cases h1 : readStr v c!"name" none with
      | none => rw [h1] at h; cases h
      | some a' =>
        rw [h1, Option.bind_some] at h
        cases h2 : readStr v c!"version" none with
        | none => rw [h2] at h; cases h
        | some b' => rw [h2] at h; cases h; exact ⟨given_of _ hg h1, given_of _ hg h2⟩

theorem reporterTexts_eq (j : Value) (name version : Str) :
    Report.readReporter j name version = (reporterTexts j).map fun o => (o.1.getD name, o.2.getD version) := by
  unfold Report.readReporter reporterTexts
  cases Json.get j c!"reporter" with
  | none => rfl
  | some v =>
    dsimp only
    split
    · rfl
    · have h1 := readStr_default v c!"name" name
      have h2 := readStr_default v c!"version" version
      cases ha : readStr v c!"name" none <;> rw [ha] at h1 <;> cases hb : readStr v c!"version" none <;> rw [hb] at h2 <;>
        cases ha' : readStr v c!"name" (some name) <;> rw [ha'] at h1 <;> cases hb' : readStr v c!"version" (some version) <;> rw [hb'] at h2 <;>
        simp_all

section
variable (A : Allocator) {j : Value} {m₀ m : Mem} {p : Ptr} {x : Part} (err : Option Ptr) {Q : Part → Prop}

theorem refuse_segment {α : Type} {B : α → Mem → Prop} (msg : Str) (h : Built .report j m₀ m p x) (hQ : ∀ y : Part, y.texts = x.texts → Q y) :
    Segment (Failed .report j m₀ p err Q) B err none (refuse A msg ⟨m, err⟩) := by
  rcases refuse_spec A h msg err with e | ⟨m', y, s, e, hb, hy, hs⟩
  · exact .inl e
  · exact .inr ⟨s, e, msg, m', y, hb, hQ y hy, hs⟩

theorem reporter_segment (d : List Int) (h : Built .report j m₀ m p { data := d, texts := [none, none, none] })
    (hQ : ∀ y : Part, (Clean j → y.texts = [none, none, none]) → Q y) :
    Segment (Failed .report j m₀ p err Q) (fun o m => Built .report j m₀ m p { data := d, texts := [none, o.1, o.2] }) err (reporterTexts j)
      (readReporter A (room j) p j ⟨m, err⟩) := by
  unfold reporterTexts readReporter
  cases hg : Json.get j c!"reporter" with
  | none => exact .inr ⟨m, rfl, h⟩
  | some v =>
    dsimp only
    have hw := weight_get hg
    cases ho : isObject v with
    | false => rw [if_pos rfl, if_pos rfl]; exact refuse_segment A err _ h fun y hy => hQ y fun _ => hy
    | true =>
      rw [if_neg (by simp), if_neg (by simp)]
      refine (text_segment A err (by omega) (.inl rfl) c!"name" .reporterName (by decide) rfl h fun y hy => hQ y fun _ => hy).andThen fun a m1 ha h1 => ?_
      have h1 : Built .report j m₀ m1 p { data := d, texts := [none, a, none] } := by cases a <;> exact h1
      have := (text_segment A err (by omega) (.inl rfl) c!"version" .reporterVersion (by decide) rfl h1 (v := v) (Q := Q) fun y hy => hQ y fun hc => by
        rw [hy, ← given_of _ hg ha, hc.1]).map (f := fun b => (a, b)) (C := fun o m => Built .report j m₀ m p { data := d, texts := [none, o.1, o.2] })
        fun b m2 _ h2 => by cases b <;> exact h2
      rwa [show (fun b => some (a, b)) = some ∘ (fun b : Option Str => (a, b)) from rfl, ← Option.map_eq_bind]

theorem os_segment (h : Built .report j m₀ m p x) (hx : x.a = .nil) (hq : ∀ v, get j c!"os" = some v → QuietOs v)
    (hQ : ∀ y : Part, y.texts = x.texts → Q y) :
    Segment (Failed .report j m₀ p err Q) (fun o m => Built .report j m₀ m p { x with a := systemChain o }) err (Report.readOs j)
      (readOs A p j ⟨m, err⟩) := by
  unfold Report.readOs readOs
  cases hg : Json.get j c!"os" with
  | none =>
    refine .inr ⟨m, rfl, ?_⟩
    show Built .report j m₀ m p { x with a := .nil }
    rw [← hx]; exact h
  | some v =>
    dsimp only
    have hw := weight_get hg
    rcases readSystem_spec A v m err (hq v hg) with e | hs
    · rw [e]; exact .inl rfl
    · cases ho : Os.fromJson v with
      | none =>
        rw [ho] at hs
        obtain ⟨msg, s, e, hr⟩ := hs
        rw [e]
        exact .inr ⟨s, rfl, msg, m, x, h, hQ x rfl, hr⟩
      | some o =>
        rw [ho] at hs
        obtain ⟨q, m', e, hb⟩ := hs
        obtain ⟨r, f, h1, h2, h3, h4⟩ := hb.holds
        have hcr : r.crashThread = 0 := h2
        rw [hcr] at h3
        have hq0 : q ≠ 0 := by obtain ⟨_, _, _, _, _, _, _, h0, _⟩ := hb; exact h0
        rw [e]
        simp only [bind_ok]
        rw [if_neg hq0]
        have hs := hb.1.sizeA
        obtain ⟨m2, e2, hb2⟩ := attachA h hx h4 h3 (hb.1.typed 0) rfl
          (by simp only [Part.chain, Chain.size, systemPart]; have := weight_pos v; omega) err
        exact .inr ⟨m2, e2, hb2⟩

theorem packageChain_spec : ∀ l : List Satyr.Rpm.Package, (packageChain l).Typed [.package] ∧ (packageChain l).size = l.length
  | [] => ⟨trivial, rfl⟩
  | x :: l => by
    obtain ⟨h1, h2⟩ := packageChain_spec l
    have : packageChain (x :: l) = .cons .package (packagePart x).data (packagePart x).texts 0 .nil .nil .nil .nil (packageChain l) := rfl
    rw [this]
    exact ⟨⟨by simp, rfl, h1, MemberOk.nil _ _, MemberOk.nil _ _, MemberOk.nil _ _, MemberOk.nil _ _⟩, by simp only [Chain.size, h2, List.length_cons]; omega⟩

theorem readAll_length {α : Type} (f : Value → Option α) : ∀ (l : List Value) {r : List α}, readAll f l = some r → r.length = l.length
  | [], r, h => by cases h; rfl
  | v :: l, r, h => by
    rw [readAll] at h
    cases hv : f v with
    | none => rw [hv] at h; cases h
    | some a =>
      rw [hv] at h
      cases hl : readAll f l with
      | none => rw [hl] at h; cases h
      | some r' =>
        rw [hl] at h
        cases h
        rw [List.length_cons, List.length_cons, readAll_length f l hl]

theorem packages_segment (h : Built .report j m₀ m p x) (hx : x.b = .nil) (hQ : ∀ y : Part, y.texts = x.texts → Q y) :
    Segment (Failed .report j m₀ p err Q) (fun o m => Built .report j m₀ m p { x with b := packageChain o }) err (Report.readPackages j)
      (readPackagesMember A p j ⟨m, err⟩) := by
  unfold Report.readPackages readPackagesMember
  cases hg : Json.get j c!"packages" with
  | none =>
    refine .inr ⟨m, rfl, ?_⟩
    show Built .report j m₀ m p { x with b := .nil }
    rw [← hx]; exact h
  | some v =>
    dsimp only
    have hw := weight_get hg
    rcases C144_packages A v m err with e | hs
    · rw [e]; exact .inl rfl
    · cases ho : Rpm.listFromJson v with
      | none =>
        rw [ho] at hs
        obtain ⟨msg, s, e, hr⟩ := hs
        rw [e]
        exact .inr ⟨s, rfl, msg, m, x, h, hQ x rfl, hr⟩
      | some l =>
        rw [ho] at hs
        obtain ⟨q, m', g, e, h3, h4⟩ := hs
        rw [e]
        simp only [bind_ok]
        have hlen : l.length ≤ weight v := by
          cases v with
          | arr vs => rw [readAll_length _ _ ho]; have := length_le_weights vs; simp only [weight]; omega
          | _ => cases ho
        obtain ⟨m2, e2, hb2⟩ := attachB h hx h4 h3 (packageChain_spec l).1 (by have := (packageChain_spec l).2; unfold packageChain at this; omega) err
        exact .inr ⟨m2, e2, hb2⟩

theorem auth_segment {w : Ptr} {t : Option Report.Stacktrace} (h : Built .report j m₀ m p x) (hx : x.e = .nil) (hc : x.c = traceChain w t)
    (hcr : CrashAt m p t) (hq : ∀ l, get j c!"auth" = some (.obj l) → ∀ e ∈ l, ∃ s, e.2 = Value.str s) (hQ : ∀ y : Part, y.texts = x.texts → Q y) :
    Segment (Failed .report j m₀ p err Q) (fun o m => Built .report j m₀ m p { x with e := entryChain o } ∧ CrashAt m p t) err (Report.readAuth j)
      (readAuth A p j ⟨m, err⟩) := by
  have bad : ∀ msg, Segment (Failed .report j m₀ p err Q) (fun o m => Built .report j m₀ m p { x with e := entryChain o } ∧ CrashAt m p t) err none
      (refuse A msg ⟨m, err⟩) := fun msg => refuse_segment A err msg h hQ
  unfold Report.readAuth readAuth
  cases hg : Json.get j c!"auth" with
  | none =>
    refine .inr ⟨m, rfl, ?_, hcr⟩
    show Built .report j m₀ m p { x with e := .nil }
    rw [← hx]; exact h
  | some v =>
    have hw := weight_get hg
    cases v with
    | obj l =>
      dsimp only
      obtain ⟨hl1, hl2⟩ := entries_spec l
      have := length_le_memberWeights l
      rcases authLoop_spec A err (entries l).reverse [] x m (fun e he => hq l hg e (hl2 e (List.mem_reverse.1 he))) hx
        (by rw [hx, List.length_reverse]; simp only [Chain.size]; simp only [weight] at hw; omega) h with e | ⟨m', e, hk, hb⟩
      · rw [e]; exact .inl rfl
      · rw [e]
        exact .inr ⟨m', rfl, hb, hcr.keep h hc (fun y _ => hk.1 y) hk.2⟩
    | _ => exact bad _
end

end Satyr.Heap
