import Verif.Heap.JsonProps
import Verif.Heap.ReportJsonModel
/-!
# Reading operating systems and reports from JSON: lemmas for C145
-/
namespace Satyr.Heap
open Satyr.CStr
open Satyr.Json
open Satyr.Frames
open Satyr.Report (ReportType typeFromString entries UReport)

/-! ## Specification -/

def systemPart (o : Satyr.Os.OperatingSystem) : Part :=
  { data := [(o.uptime : Int)], texts := [o.name, o.version, o.architecture, o.cpe, o.desktop, o.variant] }

/-- The kind and the contents of a stack trace. -/
def traceOf : Report.Stacktrace → Kind × Part
  | .core t => (.coreTrace, coreTracePart t)
  | .python t => (.pythonTrace, pythonTracePart t)
  | .koops t => (.koopsTrace, koopsTracePart t)
  | .java t => (.javaTrace, javaTracePart t)
  | .ruby t => (.rubyTrace, rubyTracePart t)
  | .js t => (.jsTrace, jsTracePart t)
  | .gdb _ => (.gdbTrace, {})

def systemChain : Option Satyr.Os.OperatingSystem → Chain
  | none => .nil
  | some o => (systemPart o).chain .system 0

def packageChain (l : List Satyr.Rpm.Package) : Chain := chainsOf (l.map fun x => (packagePart x).chain .package 0)

def traceChain (w : Ptr) : Option Report.Stacktrace → Chain
  | none => .nil
  | some t => (traceOf t).2.chain (traceOf t).1 w

def entryChain : List (Str × Str) → Chain
  | [] => .nil
  | e :: l => .cons .entry [] [some e.1, some e.2] 0 .nil .nil .nil .nil (entryChain l)

/-- The members of a report; `name` and `version` are the texts of the reporter, if they are not constants, and `w` is the pointer
to the crash thread. -/
def reportPart (r : UReport) (name version : Option Str) (w : Ptr) : Part :=
  { data := [(r.version : Int), r.type.code, bit r.userRoot, bit r.userLocal, (r.serial : Int)]
    texts := [r.component, name, version]
    a := systemChain r.os, b := packageChain r.packages, c := traceChain w r.stacktrace, e := entryChain r.auth }

/-- A text of the reporter in the document. -/
def given (j : Value) (key : Str) : Option Str :=
  match get j c!"reporter" with
  | none => none
  | some v =>
    match get v key with
    | some (.str s) => some s
    | _ => none

/-- The pointer to the crash thread of the stack trace of the report at `p` is the address of its thread number `crash`. -/
def CrashAt (m : Mem) (p : Ptr) (t : Option Report.Stacktrace) : Prop :=
  ∀ t', t = some t' → ∃ r rt, m p = some (.record r) ∧ m r.c = some (.record rt) ∧
    rt.crashThread = (traceOf t').2.crash.elim 0 (nth m rt.a) ∧ ∀ i, (traceOf t').2.crash = some i → i < (traceOf t').2.a.length

/-- Members of an operating system that may be wrong are not wrong. -/
def QuietOs (v : Value) : Prop := (readStr v c!"desktop" none).isSome = true ∧ (readStr v c!"variant" none).isSome = true

/-! ## Lemmas: parts of a function -/

/-- A part of a function that is to give `v`. -/
def Segment {α : Type} (F : State → Prop) (B : α → Mem → Prop) (err : Option Ptr) (v : Option α) (o : Out (Bool × State)) : Prop :=
  o = .abort ∨ match v with
  | some a => ∃ m, o = .ok (true, ⟨m, err⟩) ∧ B a m
  | none => ∃ s, o = .ok (false, s) ∧ F s

theorem Segment.andThen {α β : Type} {F : State → Prop} {B : α → Mem → Prop} {C : β → Mem → Prop} {err : Option Ptr} {v : Option α}
    {f : α → Option β} {o : Out (Bool × State)} {g : State → Out (Bool × State)} (h : Segment F B err v o)
    (hg : ∀ a m, v = some a → B a m → Segment F C err (f a) (g ⟨m, err⟩)) : Segment F C err (v.bind f) (andThen o g) := by
  unfold Heap.andThen
  rcases h with h | h
  · rw [h]; exact .inl rfl
  · cases v with
    | none =>
      obtain ⟨s, e, hs⟩ := h
      rw [e]
      exact .inr ⟨s, rfl, hs⟩
    | some a =>
      obtain ⟨m, e, hb⟩ := h
      rw [e]
      simp only [bind_ok, if_true]
      exact hg a m rfl hb

theorem Segment.map {α β : Type} {F : State → Prop} {B : α → Mem → Prop} {C : β → Mem → Prop} {err : Option Ptr} {v : Option α}
    {f : α → β} {o : Out (Bool × State)} (h : Segment F B err v o) (hf : ∀ a m, v = some a → B a m → C (f a) m) :
    Segment F C err (v.map f) o := by
  rcases h with h | h
  · exact .inl h
  · cases v with
    | none => exact .inr h
    | some a =>
      obtain ⟨m, e, hb⟩ := h
      exact .inr ⟨m, e, hf a m rfl hb⟩

/-- How a part fails. -/
def Failed (k : Kind) (j : Value) (m₀ : Mem) (p : Ptr) (err : Option Ptr) (Q : Part → Prop) (s : State) : Prop :=
  ∃ msg m x, Built k j m₀ m p x ∧ Q x ∧ Reported m err msg s

section
variable (A : Allocator) {k : Kind} {j v : Value} {m₀ m : Mem} {p : Ptr} {x : Part} (err : Option Ptr)

theorem step_segment (hw : weight v ≤ weight j) (hk : k = .report ∨ k = .system) (t : Step) (hfit : t.fits k = true)
    (hin : ∀ s, t.target = some s → s ∈ texts k) (he : Empty k x t) (h : Built k j m₀ m p x) {Q : Part → Prop} (hQ : ∀ y : Part, y.texts = x.texts → Q y) :
    Segment (Failed k j m₀ p err Q) (fun y m => Built k j m₀ m p y) err (stepOf (fun _ _ => .error []) k v x t).toOption
      (runStep A noItems (room j) p k v ⟨m, err⟩ t) := by
  have hc : Careful k v err := careful v err (by rcases hk with rfl | rfl <;> decide) (by rcases hk with rfl | rfl <;> decide)
  have hitem : ∀ kind v m, level kind < level k → kind ≠ .jsTrace → kind ≠ .koopsTrace → kind ≠ .report →
      Reads kind v m err ((fun _ _ => .error [] : Kind → Value → Except Str Part) kind v) (noItems kind v ⟨m, err⟩) := by
    intro kind v m hl
    exfalso
    have : level k = 1 := by rcases hk with rfl | rfl <;> rfl
    rw [this] at hl
    cases kind <;> simp [level] at hl
  rcases runStep_spec A hw t hitem hc hfit hin he h with e | h1
  · exact .inl e
  · refine .inr ?_
    cases hr : stepOf (fun _ _ => .error []) k v x t with
    | error msg =>
      rw [hr] at h1
      obtain ⟨m', y, s, e, hb, hy, hs⟩ := h1
      exact ⟨s, e, msg, m', y, hb, hQ y hy, hs⟩
    | ok y =>
      rw [hr] at h1
      obtain ⟨m', e, hb⟩ := h1
      exact ⟨m', e, hb⟩

theorem text_segment (hw : weight v ≤ weight j) (hk : k = .report ∨ k = .system) (key : Str) (t : Text) (hin : t ∈ texts k)
    (he : x.texts[(texts k).idxOf t]? = some none) (h : Built k j m₀ m p x) {Q : Part → Prop} (hQ : ∀ y : Part, y.texts = x.texts → Q y) :
    Segment (Failed k j m₀ p err Q) (fun o m => Built k j m₀ m p (x.opt k t o)) err (readStr v key none)
      (runStep A noItems (room j) p k v ⟨m, err⟩ (.text key t)) := by
  have h1 := step_segment A err hw hk (.text key t) rfl (fun s hs => by cases hs; exact hin)
    ⟨fun s hs => by cases hs; exact he, (fun h => by cases h), fun h => by cases h⟩ h hQ
  have : (stepOf (fun _ _ => .error []) k v x (.text key t)).toOption = (readStr v key none).map fun o => x.opt k t o := by
    simp only [stepOf, readStr]
    cases Json.get v key with
    | none => rfl
    | some u => cases u <;> rfl
  rw [this] at h1
  rcases h1 with e | h1
  · exact .inl e
  · cases hr : readStr v key none with
    | none => rw [hr] at h1; exact .inr h1
    | some o => rw [hr] at h1; exact .inr h1

theorem data_segment {α : Type} (hw : weight v ≤ weight j) (hk : k = .report ∨ k = .system) (f : Value → Except Str (List Int)) (g : Option α) (num : α → List Int)
    (hf : (f v).toOption = g.map num) (h : Built k j m₀ m p x) {Q : Part → Prop} (hQ : ∀ y : Part, y.texts = x.texts → Q y) :
    Segment (Failed k j m₀ p err Q) (fun n m => Built k j m₀ m p (x.add (num n))) err g
      (runStep A noItems (room j) p k v ⟨m, err⟩ (.data f)) := by
  have h1 := step_segment A err hw hk (.data f) rfl (fun s hs => by cases hs)
    ⟨(fun s hs => by cases hs), (fun h => by cases h), fun h => by cases h⟩ h hQ
  have : (stepOf (fun _ _ => .error []) k v x (.data f)).toOption = g.map fun n => x.add (num n) := by
    simp only [stepOf]
    cases hfv : f v with
    | error e =>
      rw [hfv] at hf
      cases g with
      | none => rfl
      | some a => cases hf
    | ok l =>
      rw [hfv] at hf
      cases g with
      | none => cases hf
      | some a =>
        have : some l = some (num a) := hf
        cases this
        rfl
  rw [this] at h1
  rcases h1 with e | h1
  · exact .inl e
  · cases g with
    | none => exact .inr h1
    | some o => exact .inr h1
end

theorem u32_num (v : Value) (key : Str) (d : Nat) : ∀ f, u32 key d = .data f → (f v).toOption = (readU32 v key d).map fun n : Nat => [(n : Int)] := by
  intro f hf
  cases hf
  dsimp only
  cases readU32 v key d <;> rfl

theorem u64_num (v : Value) (key : Str) (d : Nat) : ∀ f, u64 key d = .data f → (f v).toOption = (readU64 v key d).map fun n : Nat => [(n : Int)] := by
  intro f hf
  cases hf
  dsimp only
  cases readU64 v key d <;> rfl

/-! ## Lemmas: other memory -/

theorem Adds.fewer {m₀ m : Mem} {f : List Ptr} {q : Ptr} {c : Cell} (h : Adds m₀ m (f ++ [q])) (hq : m q = some c) :
    Adds (m₀.set q (some c)) m f := by
  have hn := List.nodup_append.1 h.nodup
  have hqf : q ∉ f := fun hf => hn.2.2 q hf q (by simp) rfl
  refine ⟨hn.1, fun x hx => ?_, fun x hx => h.used x (by simp [hx]), fun x hx => ?_⟩
  · rw [set_ne _ _ (fun e : x = q => hqf (e ▸ hx))]; exact h.fresh x (by simp [hx])
  · by_cases hxq : x = q
    · subst hxq; rw [set_eq, hq]
    · rw [set_ne _ _ hxq]; exact h.same x (by simp [hx, hxq])

/-- Other memory that is added may be taken as there from the beginning. -/
theorem Built.rebase {k j m₀ m p x m' q c} (h : Built k j m₀ m p x) (hA : Adds m m' [q]) (hq : m' q = some c) :
    Built k j (m₀.set q (some c)) m' p x := by
  obtain ⟨hok, r, fs, fa, fb, fc, fe, h0, h1, h2, h3, h4, ha, hb, hc, he, hn, hw, hadds⟩ := h.more hA
  exact ⟨hok, r, fs, fa, fb, fc, fe, h0, h1, h2, h3, h4, ha, hb, hc, he, hn, hw, hadds.fewer hq⟩

/-- What was in memory at the beginning may be freed. -/
theorem Built.without {k j m₀ m p x q c} (h : Built k j (m₀.set q (some c)) m p x) (hq : m₀ q = none) : Built k j m₀ (erase m [q]) p x := by
  obtain ⟨hok, r, fs, fa, fb, fc, fe, h0, h1, h2, h3, h4, ha, hb, hc, he, hn, hw, hadds⟩ := h
  have hne : ∀ y ∈ p :: (fs ++ (fa ++ (fb ++ (fc ++ fe)))), y ≠ q := fun y hy e => by
    have := hadds.fresh y hy
    rw [e, set_eq] at this
    cases this
  have keep : ∀ y ∈ p :: (fs ++ (fa ++ (fb ++ (fc ++ fe)))), erase m [q] y = m y := fun y hy => if_neg (by simpa using hne y hy)
  refine ⟨hok, r, fs, fa, fb, fc, fe, h0, by rw [keep p (by simp), h1], h2, h3, h4.congr fun y hy => keep y (by simp [hy]),
    ha.congr fun y hy => keep y (by simp [hy]), hb.congr fun y hy => keep y (by simp [hy]), hc.congr fun y hy => keep y (by simp [hy]),
    he.congr fun y hy => keep y (by simp [hy]), hn, ?_, hadds.nodup, fun y hy => ?_, fun y hy => by rw [keep y hy]; exact hadds.used y hy,
    fun y hy => ?_⟩
  · rw [hw]
    cases hcr : x.crash with
    | none => rfl
    | some i => exact (nth_congr ha (fun y hy => keep y (by simp [hy])) (hok.crash i hcr).1).1.symm
  · have := hadds.fresh y hy
    rwa [set_ne _ _ (hne y hy)] at this
  · by_cases hyq : y = q
    · subst hyq; rw [hq]; exact if_pos (by simp)
    · rw [show erase m [q] y = m y from if_neg (by simpa using hyq), hadds.same y hy, set_ne _ _ hyq]

theorem Reported.rebase {k j m₀ m p x err msg s} (h : Built k j m₀ m p x) (hs : Reported m err msg s) :
    ∃ m₁, Built k j m₁ s.mem p x ∧ Reported m₀ err msg ⟨m₁, s.err⟩ := by
  cases err with
  | none =>
    have hs : s = ⟨m, none⟩ := hs
    subst hs
    exact ⟨m₀, h, rfl⟩
  | some e =>
    obtain ⟨q, hq, hq0, rfl⟩ := hs
    have hA : Adds m (m.set q (some (.text msg))) [q] :=
      ⟨by simp, by simpa using hq, by simp [set_eq], fun y hy => set_ne _ _ (by simpa using hy)⟩
    refine ⟨_, h.rebase hA (set_eq _ _ _), q, ?_, hq0, rfl⟩
    obtain ⟨_, r, fs, fa, fb, fc, fe, _, _, _, _, _, _, _, _, _, _, _, hadds⟩ := h
    by_cases hqf : q ∈ p :: (fs ++ (fa ++ (fb ++ (fc ++ fe))))
    · exact absurd hq (hadds.used q hqf)
    · rw [← hadds.same q hqf]; exact hq

theorem Built.free' {k j m₀ m p x} (h : Built k j m₀ m p x)
    (hr : k = .report → x.texts[1]? = some none ∧ x.texts[2]? = some none) (b : Bool) : Heap.free (room j) p b m = .ok m₀ := by
  obtain ⟨m₂, e1, e2⟩ := h.free hr (Reported.refl m) b (Nat.le_refl _)
  have h3 : (⟨m₂, none⟩ : State) = ⟨m₀, none⟩ := e2
  cases h3
  exact e1

theorem built_new {k : Kind} (j : Value) {m : Mem} {p : Ptr} (hp : p ≠ 0)
    (hA : Adds m (m.set p (some (.record { kind := k, texts := List.replicate (texts k).length 0 }))) [p]) :
    Built k j m (m.set p (some (.record { kind := k, texts := List.replicate (texts k).length 0 }))) p
      { texts := List.replicate (texts k).length none } :=
  ⟨⟨by simp, MemberOk.nil _ _, MemberOk.nil _ _, MemberOk.nil _ _, MemberOk.nil _ _, weight_pos j, Nat.zero_le _, Nat.zero_le _, Nat.zero_le _,
    by simp⟩, _, [], [], [], [], [], hp, set_eq _ _ _, rfl, rfl, texts_null _ _, ⟨rfl, rfl⟩, ⟨rfl, rfl⟩, ⟨rfl, rfl⟩, ⟨rfl, rfl⟩, rfl, rfl, hA⟩

/-! ## Lemmas: operating systems -/

/-- Reading that is to give `v`. -/
def Gives (k : Kind) (j : Value) (m : Mem) (err : Option Ptr) (v : Option Part) (o : Out (Ptr × State)) : Prop :=
  o = .abort ∨ match v with
  | none => ∃ msg s, o = .ok (0, s) ∧ Reported m err msg s
  | some x => ∃ p m', o = .ok (p, ⟨m', err⟩) ∧ Built k j m m' p x

theorem Reads.gives {k j m err r o} {v : Option Part} (h : Reads k j m err r o) (hv : r.toOption = v) : Gives k j m err v o := by
  subst hv
  rcases h with h | h
  · exact .inl h
  · cases r with
    | error msg => obtain ⟨s, h⟩ := h; exact .inr ⟨msg, s, h⟩
    | ok x => exact .inr h

theorem Gives.outcome {k j m err o} {v : Option Part} (h : Gives k j m err v o) : Outcome k m err v o := by
  rcases h with h | h
  · exact .inl h
  · cases v with
    | none => exact .inr h
    | some x =>
      obtain ⟨p, m', e, hb⟩ := h
      obtain ⟨r, f, h1, h2, h3, h4⟩ := hb.holds
      exact .inr ⟨p, m', r, f, e, h1, h2, h3, h4⟩

/-- Reading a text that is not wrong. -/
theorem text_quiet (A : Allocator) {k j m₀ m p x} (err : Option Ptr) (hk : k = .report ∨ k = .system) (key : Str) (t : Text) (hin : t ∈ texts k)
    (he : x.texts[(texts k).idxOf t]? = some none) (h : Built k j m₀ m p x) (hq : (readStr j key none).isSome = true) :
    runStep A noItems (room j) p k j ⟨m, err⟩ (.text key t) = .abort ∨
    ∃ m', runStep A noItems (room j) p k j ⟨m, err⟩ (.text key t) = .ok (true, ⟨m', err⟩) ∧
      Built k j m₀ m' p (x.opt k t ((readStr j key none).getD none)) := by
  rcases text_segment A err (Nat.le_refl _) hk key t hin he h (Q := fun _ => True) (fun _ _ => trivial) with e | h1
  · exact .inl e
  · cases hr : readStr j key none with
    | none => rw [hr] at hq; cases hq
    | some o => rw [hr] at h1; exact .inr h1

theorem readSystem_spec (A : Allocator) (j : Value) (m : Mem) (err : Option Ptr) (hq : QuietOs j) :
    Gives .system j m err ((Os.fromJson j).map systemPart) (readSystem A j ⟨m, err⟩) := by
  unfold Os.fromJson readSystem
  cases ho : isObject j with
  | false =>
    rw [if_pos rfl, if_pos rfl]
    rcases setError_spec A (typeError c!"operating system" c!"object") ⟨m, err⟩ with e | ⟨s, e, hs⟩
    · rw [e]; exact .inl rfl
    · rw [e]; exact .inr ⟨_, s, rfl, hs⟩
  | true =>
    rw [if_neg (by simp), if_neg (by simp)]
    rcases alloc_spec A (.record { kind := .system, texts := List.replicate (texts .system).length 0 }) m with e | ⟨p, e, hp, hA⟩
    · rw [e]; exact .inl rfl
    · rw [e]
      simp only [bind_ok]
      have hsys : (Kind.system = .report ∨ Kind.system = .system) := .inr rfl
      have h0 := built_new j hp hA
      let Q : Part → Prop := fun y => y.texts[4]? = some none ∧ y.texts[5]? = some none
      have hQ : ∀ T : List (Option Str), T[4]? = some none → T[5]? = some none → ∀ y : Part, y.texts = T → Q y :=
        fun T h4 h5 y hy => ⟨hy ▸ h4, hy ▸ h5⟩
      have seg : Segment (Failed .system j m p err Q) (fun (o : Option Str × Option Str × Option Str × Nat) m' => Built .system j m m' p
          { data := [(o.2.2.2 : Int)], texts := [o.1, o.2.1, o.2.2.1, none, none, none] }) err
          ((readStr j c!"name" none).bind fun a => (readStr j c!"version" none).bind fun b => (readStr j c!"architecture" none).bind fun c =>
            (readU64 j c!"uptime" 0).map fun n => (a, b, c, n))
          (andThen (runStep A noItems (room j) p .system j ⟨m.set p (some (.record { kind := .system, texts := List.replicate (texts .system).length 0 })), err⟩
              (.text c!"name" .name)) fun s =>
            andThen (runStep A noItems (room j) p .system j s (.text c!"version" .version)) fun s =>
            andThen (runStep A noItems (room j) p .system j s (.text c!"architecture" .architecture)) fun s =>
            runStep A noItems (room j) p .system j s (u64 c!"uptime" 0)) := by
        refine (text_segment A err (Nat.le_refl _) hsys c!"name" .name (by decide) rfl h0 (hQ _ rfl rfl)).andThen fun a m1 _ h1 => ?_
        have h1 : Built .system j m m1 p { texts := [a, none, none, none, none, none] } := by cases a <;> exact h1
        refine (text_segment A err (Nat.le_refl _) hsys c!"version" .version (by decide) rfl h1 (hQ _ rfl rfl)).andThen fun b m2 _ h2 => ?_
        have h2 : Built .system j m m2 p { texts := [a, b, none, none, none, none] } := by cases b <;> exact h2
        refine (text_segment A err (Nat.le_refl _) hsys c!"architecture" .architecture (by decide) rfl h2 (hQ _ rfl rfl)).andThen fun c m3 _ h3 => ?_
        have h3 : Built .system j m m3 p { texts := [a, b, c, none, none, none] } := by cases c <;> exact h3
        refine (data_segment A err (Nat.le_refl _) hsys _ _ _ (u64_num j c!"uptime" 0 _ rfl) h3 (hQ _ rfl rfl)).map fun n m4 _ h4 => ?_
        exact h4
      rcases seg with e | h1
      · rw [e]; exact .inl rfl
      · generalize hv : ((readStr j c!"name" none).bind fun a => (readStr j c!"version" none).bind fun b => (readStr j c!"architecture" none).bind fun c =>
            (readU64 j c!"uptime" 0).map fun n => (a, b, c, n)) = v at h1
        have hmap : (((readStr j c!"name" none).bind fun name => (readStr j c!"version" none).bind fun version =>
            (readStr j c!"architecture" none).bind fun architecture => (readU64 j c!"uptime" 0).bind fun uptime =>
            some ({ name, version, architecture, uptime, desktop := (readStr j c!"desktop" none).getD none,
                    variant := (readStr j c!"variant" none).getD none } : Satyr.Os.OperatingSystem)).map systemPart) = v.map fun o =>
            { data := [(o.2.2.2 : Int)], texts := [o.1, o.2.1, o.2.2.1, none, (readStr j c!"desktop" none).getD none, (readStr j c!"variant" none).getD none] } := by
          rw [← hv]
          cases readStr j c!"name" none <;> cases readStr j c!"version" none <;> cases readStr j c!"architecture" none <;>
            cases readU64 j c!"uptime" 0 <;> rfl
        rw [hmap]
        cases v with
        | none =>
          obtain ⟨s, e, msg, m1, x, hb, ⟨hx4, hx5⟩, hs⟩ := h1
          rw [e]
          simp only [bind_ok]
          obtain ⟨m₁, hb1, hs1⟩ := Reported.rebase hb hs
          rcases text_quiet A s.err hsys c!"desktop" .desktop (by decide) hx4 hb1 hq.1 with e | ⟨m2, e, hb2⟩
          · rw [show (⟨s.mem, s.err⟩ : State) = s from rfl] at e
            rw [e]; exact .inl rfl
          · rw [show (⟨s.mem, s.err⟩ : State) = s from rfl] at e
            rw [e]
            simp only [bind_ok]
            have hx5' : (x.opt .system .desktop ((readStr j c!"desktop" none).getD none)).texts[5]? = some none := by
              cases (readStr j c!"desktop" none).getD none with
              | none => exact hx5
              | some t =>
                show (x.texts.set 4 (some t))[5]? = _
                rw [List.getElem?_set_ne (by decide)]; exact hx5
            rcases text_quiet A s.err hsys c!"variant" .variant (by decide) hx5' hb2 hq.2 with e | ⟨m3, e, hb3⟩
            · rw [e]; exact .inl rfl
            · rw [e]
              simp only [bind_ok]
              rw [if_neg (by simp), hb3.free' (fun e => by cases e) false]
              exact .inr ⟨msg, _, rfl, hs1⟩
        | some o =>
          obtain ⟨m1, e, hb1⟩ := h1
          rw [e]
          simp only [bind_ok]
          rcases text_quiet A err hsys c!"desktop" .desktop (by decide) rfl hb1 hq.1 with e | ⟨m2, e, hb2⟩
          · rw [e]; exact .inl rfl
          · rw [e]
            simp only [bind_ok]
            generalize (readStr j c!"desktop" none).getD none = d at hb2
            have hb2 : Built .system j m m2 p { data := [(o.2.2.2 : Int)], texts := [o.1, o.2.1, o.2.2.1, none, d, none] } := by cases d <;> exact hb2
            rcases text_quiet A err hsys c!"variant" .variant (by decide) rfl hb2 hq.2 with e | ⟨m3, e, hb3⟩
            · rw [e]; exact .inl rfl
            · rw [e]
              simp only [bind_ok, if_true]
              refine .inr ⟨p, m3, rfl, ?_⟩
              generalize (readStr j c!"variant" none).getD none = w at hb3
              cases w <;> exact hb3

end Satyr.Heap
