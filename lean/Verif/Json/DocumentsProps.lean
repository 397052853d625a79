import Verif.Json.Documents
import Verif.CStr.Cmp
import Verif.Json.Koops
/-!
# Each reader accepts exactly the documents described, with the values described (C123)
-/
namespace Satyr.Json
open Satyr.CStr Satyr.Frames Satyr.Normalize

set_option linter.unusedSimpArgs false

theorem core_frame_iff (j : Value) (t : CoreFrame) : Core.frameFromJson j = some t ↔ CoreFrameDoc j t := by
  unfold CoreFrameDoc
  refine by_object (f := Core.frameFromJson) (fun j h => by unfold Core.frameFromJson; rw [if_pos h]) (fun l => ?_) j
  unfold Core.frameFromJson
  rw [if_neg (by simp [isObject])]
  simp only [Option.bind_eq_some_iff, text_iff, truth_iff, u64_iff]
  constructor
  · rintro ⟨a0, h0, a1, h1, a2, h2, a3, h3, a4, h4, a5, h5, a6, h6, e⟩
    cases e
    exact ⟨h0, h1, h2, h3, h4, h5, h6⟩
  · rintro ⟨h0, h1, h2, h3, h4, h5, h6⟩
    exact ⟨_, h0, _, h1, _, h2, _, h3, _, h4, _, h5, _, h6, rfl⟩

theorem core_thread_iff (j : Value) (t : CoreThread) : Core.threadFromJson j = some t ↔ CoreThreadDoc j t := by
  unfold CoreThreadDoc
  refine by_object (f := Core.threadFromJson) (fun j h => by unfold Core.threadFromJson; rw [if_pos h]) (fun l => ?_) j
  unfold Core.threadFromJson
  rw [if_neg (by simp [isObject])]
  simp only [Option.bind_eq_some_iff, items_iff core_frame_iff]
  constructor
  · rintro ⟨a0, h0, e⟩
    cases e
    exact ⟨rfl, h0⟩
  · rintro ⟨h, h0⟩
    refine ⟨_, h0, ?_⟩
    cases t; cases h; rfl

theorem mark_iff {l : List (Str × Value)} {b : Bool} :
    Core.readMark (.obj l) = some b ↔ Truth l c!"crash_thread" false b := by
  rw [← truth_iff]; unfold Core.readMark readBool
  cases get (.obj l) c!"crash_thread" with
  | none => exact Iff.rfl
  | some v => cases v <;> exact Iff.rfl

theorem marked_iff (j : Value) (t : CoreThread × Bool) : Core.markedFromJson j = some t ↔ MarkedDoc j t := by
  unfold Core.markedFromJson MarkedDoc
  simp only [Option.bind_eq_some_iff, core_thread_iff]
  constructor
  · rintro ⟨a, ha, b, hb, e⟩
    cases e
    obtain ⟨l, rfl, h⟩ := ha
    exact ⟨⟨l, rfl, h⟩, l, rfl, mark_iff.1 hb⟩
  · rintro ⟨ha, l, rfl, hb⟩
    exact ⟨_, ha, _, mark_iff.2 hb, rfl⟩

theorem lastMark_iff : ∀ (marks : List Bool) (c : Option Nat), Core.lastMarked marks = c ↔ LastMark marks c
  | [], c => by
    unfold Core.lastMarked LastMark
    simp [eq_comm]
  | b :: l, c => by
    unfold Core.lastMarked
    cases h : Core.lastMarked l with
    | some k =>
      have hl := (lastMark_iff l _).1 h
      obtain ⟨hl, _⟩ | ⟨before, after, rfl, ha, e⟩ := hl
      · cases hl
      · cases e
        constructor
        · rintro rfl
          exact .inr ⟨b :: before, after, rfl, ha, rfl⟩
        · rintro (⟨_, hb⟩ | ⟨before', after', e, ha', rfl⟩)
          · simp at hb
          · cases before' with
            | nil => simp only [List.nil_append, List.cons.injEq] at e; rw [← e.2] at ha'; simp at ha'
            | cons x xs =>
              simp only [List.cons_append, List.cons.injEq] at e
              have := (lastMark_iff (before ++ true :: after) (some xs.length)).2 (.inr ⟨xs, after', e.2, ha', rfl⟩)
              rw [h] at this
              simp only [Option.some.injEq] at this
              simp [this]
    | none =>
      have hl := (lastMark_iff l _).1 h
      obtain ⟨_, hl⟩ | ⟨_, _, _, _, e⟩ := hl
      · cases b with
        | true =>
          constructor
          · rintro rfl; exact .inr ⟨[], l, rfl, hl, rfl⟩
          · rintro (⟨_, hb⟩ | ⟨before', after', e, ha', rfl⟩)
            · simp at hb
            · cases before' with
              | nil => rfl
              | cons x xs => simp only [List.cons_append, List.cons.injEq] at e; rw [e.2] at hl; simp at hl
        | false =>
          constructor
          · rintro rfl; exact .inl ⟨rfl, by simpa using hl⟩
          · rintro (⟨rfl, _⟩ | ⟨before', after', e, ha', rfl⟩)
            · rfl
            · cases before' with
              | nil => simp at e
              | cons x xs => simp only [List.cons_append, List.cons.injEq] at e; rw [e.2] at hl; simp at hl
      · cases e

/-- **C123** (core dumps). -/
theorem C123_core (j : Value) (t : CoreTrace) : Core.fromJson j = some t ↔ CoreDoc j t := by
  unfold CoreDoc
  refine by_object (f := Core.fromJson) (fun j h => by unfold Core.fromJson; rw [if_pos h]) (fun l => ?_) j
  unfold Core.fromJson
  rw [if_neg (by simp [isObject])]
  simp only [Option.bind_eq_some_iff, text_iff, truth_iff, u16_iff, items_iff marked_iff]
  constructor
  · rintro ⟨a0, h0, a1, h1, a2, h2, a3, h3, e⟩
    cases e
    exact ⟨h0, h1, h2, a3, h3, rfl, (lastMark_iff _ _).1 rfl⟩
  · rintro ⟨h0, h1, h2, items, h3, h4, h5⟩
    refine ⟨_, h0, _, h1, _, h2, _, h3, ?_⟩
    rw [(lastMark_iff _ _).2 h5, ← h4]

theorem python_frame_iff (j : Value) (t : PythonFrame) : Python.frameFromJson j = some t ↔ PythonFrameDoc j t := by
  unfold PythonFrameDoc
  refine by_object (f := Python.frameFromJson) (fun j h => by unfold Python.frameFromJson; rw [if_pos h]) (fun l => ?_) j
  unfold Python.frameFromJson
  rw [if_neg (by simp [isObject])]
  simp only [Option.bind_eq_some_iff, text_iff, u32_iff, Prod.exists, special_iff]
  constructor
  · rintro ⟨a0, b0, h0, a1, b1, h1, a2, h2, a3, h3, e⟩
    cases e
    exact ⟨h0, h1, h2, h3⟩
  · rintro ⟨h0, h1, h2, h3⟩
    exact ⟨_, _, h0, _, _, h1, _, h2, _, h3, rfl⟩

/-- **C123** (Python). -/
theorem C123_python (j : Value) (t : PythonTrace) : Python.fromJson j = some t ↔ PythonDoc j t := by
  unfold PythonDoc
  refine by_object (f := Python.fromJson) (fun j h => by unfold Python.fromJson; rw [if_pos h]) (fun l => ?_) j
  unfold Python.fromJson
  rw [if_neg (by simp [isObject])]
  simp only [Option.bind_eq_some_iff, text_iff, truth_iff, u64_iff, u32_iff, u16_iff, items_iff python_frame_iff]
  constructor
  · rintro ⟨a0, h0, a1, h1, e⟩
    cases e
    exact ⟨h0, h1⟩
  · rintro ⟨h0, h1⟩
    exact ⟨_, h0, _, h1, rfl⟩

theorem ruby_frame_iff (j : Value) (t : RubyFrame) : Ruby.frameFromJson j = some t ↔ RubyFrameDoc j t := by
  unfold RubyFrameDoc
  refine by_object (f := Ruby.frameFromJson) (fun j h => by unfold Ruby.frameFromJson; rw [if_pos h]) (fun l => ?_) j
  unfold Ruby.frameFromJson
  rw [if_neg (by simp [isObject])]
  simp only [Option.bind_eq_some_iff, text_iff, u32_iff, Prod.exists, special_iff]
  constructor
  · rintro ⟨a0, h0, a1, b1, h1, a2, h2, a3, h3, a4, h4, e⟩
    cases e
    exact ⟨h0, h1, h2, h3, h4⟩
  · rintro ⟨h0, h1, h2, h3, h4⟩
    exact ⟨_, h0, _, _, h1, _, h2, _, h3, _, h4, rfl⟩

/-- **C123** (Ruby). -/
theorem C123_ruby (j : Value) (t : RubyTrace) : Ruby.fromJson j = some t ↔ RubyDoc j t := by
  unfold RubyDoc
  refine by_object (f := Ruby.fromJson) (fun j h => by unfold Ruby.fromJson; rw [if_pos h]) (fun l => ?_) j
  unfold Ruby.fromJson
  rw [if_neg (by simp [isObject])]
  simp only [Option.bind_eq_some_iff, text_iff, truth_iff, u64_iff, u32_iff, u16_iff, items_iff ruby_frame_iff]
  constructor
  · rintro ⟨a0, h0, a1, h1, e⟩
    cases e
    exact ⟨h0, h1⟩
  · rintro ⟨h0, h1⟩
    exact ⟨_, h0, _, h1, rfl⟩

theorem java_frame_iff (j : Value) (t : JavaFrame) : Java.frameFromJson j = some t ↔ JavaFrameDoc j t := by
  unfold JavaFrameDoc
  refine by_object (f := Java.frameFromJson) (fun j h => by unfold Java.frameFromJson; rw [if_pos h]) (fun l => ?_) j
  unfold Java.frameFromJson
  rw [if_neg (by simp [isObject])]
  simp only [Option.bind_eq_some_iff, text_iff, truth_iff, u64_iff, u32_iff, u16_iff]
  constructor
  · rintro ⟨a0, h0, a1, h1, a2, h2, a3, h3, a4, h4, a5, h5, a6, h6, e⟩
    cases e
    exact ⟨h0, h1, h2, h3, h4, h5, h6⟩
  · rintro ⟨h0, h1, h2, h3, h4, h5, h6⟩
    exact ⟨_, h0, _, h1, _, h2, _, h3, _, h4, _, h5, _, h6, rfl⟩

theorem java_thread_iff (j : Value) (t : JavaThread) : Java.threadFromJson j = some t ↔ JavaThreadDoc j t := by
  unfold JavaThreadDoc
  refine by_object (f := Java.threadFromJson) (fun j h => by unfold Java.threadFromJson; rw [if_pos h]) (fun l => ?_) j
  unfold Java.threadFromJson
  rw [if_neg (by simp [isObject])]
  simp only [Option.bind_eq_some_iff, text_iff, truth_iff, u64_iff, u32_iff, u16_iff, items_iff java_frame_iff]
  constructor
  · rintro ⟨a0, h0, a1, h1, e⟩
    cases e
    exact ⟨h0, h1⟩
  · rintro ⟨h0, h1⟩
    exact ⟨_, h0, _, h1, rfl⟩

/-- **C123** (Java). -/
theorem C123_java (j : Value) (t : JavaTrace) : Java.fromJson j = some t ↔ JavaDoc j t := by
  unfold JavaDoc
  refine by_object (f := Java.fromJson) (fun j h => by unfold Java.fromJson; rw [if_pos h]) (fun l => ?_) j
  unfold Java.fromJson
  rw [if_neg (by simp [isObject])]
  simp only [Option.bind_eq_some_iff, items_iff java_thread_iff]
  constructor
  · rintro ⟨a0, h0, e⟩
    cases e
    exact h0
  · intro h0
    exact ⟨_, h0, rfl⟩

theorem js_frame_iff (j : Value) (t : JsFrame) : Js.frameFromJson j = some t ↔ JsFrameDoc j t := by
  unfold JsFrameDoc
  refine by_object (f := Js.frameFromJson) (fun j h => by unfold Js.frameFromJson; rw [if_pos h]) (fun l => ?_) j
  unfold Js.frameFromJson
  rw [if_neg (by simp [isObject])]
  simp only [Option.bind_eq_some_iff, text_iff, truth_iff, u64_iff, u32_iff, u16_iff]
  constructor
  · rintro ⟨a0, h0, a1, h1, a2, h2, a3, h3, e⟩
    cases e
    exact ⟨h0, h1, h2, h3⟩
  · rintro ⟨h0, h1, h2, h3⟩
    exact ⟨_, h0, _, h1, _, h2, _, h3, rfl⟩

theorem get_not_object {j : Value} (h : ∀ l, j ≠ .obj l) (k : Str) : get j k = none := by
  cases j <;> first | rfl | exact absurd rfl (h _)

theorem part_iff {l : List (Str × Value)} {k known : Str} {of : Str → Nat} {n : Nat} (hk : known ≠ c!"<unknown>")
    (hof : ∀ s, of s = if strcmp s known = 0 then 1 else 0) : Js.readPart (.obj l) k of = some n ↔ PartDoc l k known n := by
  unfold Js.readPart PartDoc readStr
  simp only [← get_some_iff, hof, strcmp_eq_zero]
  constructor
  · intro h
    cases e : get (.obj l) k with
    | none => rw [e] at h; cases h
    | some v =>
      rw [e] at h
      cases v with
      | str s =>
        simp only [Option.bind_some] at h
        split at h
        · rename_i e'; cases h; exact .inl ⟨by rw [e'], rfl⟩
        · by_cases hs : s = known
          · rw [if_pos hs, if_neg (by decide)] at h
            cases h
            exact .inr ⟨by rw [hs], rfl⟩
          · rw [if_neg hs, if_pos rfl] at h; cases h
      | _ => cases h
  · rintro (⟨e, rfl⟩ | ⟨e, rfl⟩)
    · rw [e]; rfl
    · rw [e]
      simp [hk]

theorem platform_iff (j : Value) (p : Nat) : Js.platformFromJson j = some p ↔ PlatformDoc j p := by
  unfold Js.platformFromJson PlatformDoc
  have e1 : ∀ l n, Js.readPart (.obj l) c!"engine" Js.engineOf = some n ↔ PartDoc l c!"engine" c!"V8" n :=
    fun l n => part_iff (by decide) (fun s => rfl)
  have e2 : ∀ l n, Js.readPart (.obj l) c!"runtime" Js.runtimeOf = some n ↔ PartDoc l c!"runtime" c!"Node.js" n :=
    fun l n => part_iff (by decide) (fun s => rfl)
  have small : ∀ {l k known n}, PartDoc l k known n → n = 0 ∨ n = 1 := by
    rintro l k known n (⟨_, rfl⟩ | ⟨_, rfl⟩) <;> simp
  have sum : ∀ {a b : Nat}, a = 0 ∨ a = 1 → b = 0 ∨ b = 1 → Js.assemble a b = a * 16 + b := by
    rintro a b (rfl | rfl) (rfl | rfl) <;> rfl
  by_cases ho : ∃ l, j = .obj l
  · obtain ⟨l, rfl⟩ := ho
    simp only [Option.bind_eq_some_iff, e1, e2, Option.some.injEq]
    constructor
    · rintro ⟨a, ha, b, hb, rfl⟩
      exact ⟨l, rfl, a, b, ha, hb, sum (small ha) (small hb)⟩
    · rintro ⟨l', e, a, b, ha, hb, rfl⟩
      cases e
      exact ⟨a, ha, b, hb, sum (small ha) (small hb)⟩
  · constructor
    · intro h
      have := get_not_object (j := j) (fun l e => ho ⟨l, e⟩) c!"engine"
      simp only [Js.readPart, readStr, this, Option.bind_some, Option.bind_none] at h
      cases h
    · rintro ⟨l, e, _⟩; exact absurd ⟨l, e⟩ ho

theorem readPlatform_iff {l : List (Str × Value)} {n : Nat} : Js.readPlatform (.obj l) = some n ↔
    NoMember l c!"platform" ∧ n = 0 ∨ ∃ p, HasMember l c!"platform" p ∧ PlatformDoc p n := by
  unfold Js.readPlatform
  simp only [← get_some_iff, ← get_none_iff, ← platform_iff]
  cases get (.obj l) c!"platform" with
  | none => simp [eq_comm]
  | some p => simp

/-- **C123** (JavaScript). -/
theorem C123_javascript (j : Value) (t : JsTrace) : Js.fromJson j = some t ↔ JsDoc j t := by
  unfold JsDoc
  refine by_object (f := Js.fromJson) (fun j h => by unfold Js.fromJson; rw [if_pos h]) (fun l => ?_) j
  unfold Js.fromJson
  rw [if_neg (by simp [isObject])]
  simp only [Option.bind_eq_some_iff, text_iff, items_iff js_frame_iff, readPlatform_iff]
  constructor
  · rintro ⟨a0, h0, a1, h1, a2, h2, e⟩
    cases e
    exact ⟨h0, h1, h2⟩
  · rintro ⟨h0, h1, h2⟩
    exact ⟨_, h0, _, h1, _, h2, rfl⟩

theorem koops_frame_iff (j : Value) (t : KoopsFrame) : Koops.frameFromJson j = some t ↔ KoopsFrameDoc j t := by
  unfold KoopsFrameDoc
  refine by_object (f := Koops.frameFromJson) (fun j h => by unfold Koops.frameFromJson; rw [if_pos h]) (fun l => ?_) j
  unfold Koops.frameFromJson
  rw [if_neg (by simp [isObject])]
  simp only [Option.bind_eq_some_iff, text_iff, truth_iff, u64_iff, u32_iff, u16_iff]
  constructor
  · rintro ⟨a0, h0, a1, h1, a2, h2, a3, h3, a4, h4, a5, h5, a6, h6, a7, h7, a8, h8, a9, h9, a10, h10, a11, h11, e⟩
    cases e
    exact ⟨h0, h1, h2, h3, h4, h5, h6, h7, h8, h9, h10, h11⟩
  · rintro ⟨h0, h1, h2, h3, h4, h5, h6, h7, h8, h9, h10, h11⟩
    exact ⟨_, h0, _, h1, _, h2, _, h3, _, h4, _, h5, _, h6, _, h7, _, h8, _, h9, _, h10, _, h11, rfl⟩

theorem strings_iff (vs : List Value) (names : List Str) : List.Forall₂ StrDoc vs names ↔ vs = names.map .str := by
  unfold StrDoc
  induction vs generalizing names with
  | nil => cases names <;> simp
  | cons v vs ih => cases names <;> simp [ih]

theorem taintNames_flags : taintNames = Satyr.Koops.flags.map fun f => (f.name, f.get) := rfl

theorem readFlags_not_strings {vs : List Value} (h : ∀ names : List Str, vs ≠ names.map .str) (t : Taints) :
    Koops.readFlags t vs = none := by
  induction vs generalizing t with
  | nil => exact absurd rfl (h [])
  | cons v vs ih =>
    cases v with
    | str s => exact ih (fun names e => h (s :: names) (by rw [e]; rfl)) _
    | _ => rfl

theorem taints_iff {l : List (Str × Value)} {t : Taints} : Koops.flagsFromJson (.obj l) = some t ↔ TaintsDoc l t := by
  have h0 : ∀ f ∈ Satyr.Koops.flags, f.get {} = false := by decide +kernel
  have hread : ∀ names : List Str, Koops.readFlags {} (names.map .str) = some t ↔ ∀ p ∈ taintNames, p.2 t = true ↔ p.1 ∈ names := by
    intro names
    obtain ⟨u, h1, h2⟩ := Koops.readFlags_names names {}
    rw [h1, taintNames_flags, List.forall_mem_map]
    constructor
    · intro e f hf
      cases e
      dsimp only
      rw [h2 f hf, h0 f hf, Bool.or_false, List.contains_iff_mem]
    · intro h
      refine congrArg some (Satyr.Koops.flags_ext u t fun f hf => ?_)
      rw [h2 f hf, h0 f hf, Bool.or_false, Bool.eq_iff_iff, List.contains_iff_mem]
      exact (h f hf).symm
  unfold Koops.flagsFromJson TaintsDoc
  constructor
  · intro h
    cases e : get (.obj l) c!"taint_flags" with
    | none =>
      rw [e] at h
      exact ⟨[], .absent (get_none_iff.1 e), (hread []).1 h⟩
    | some v =>
      rw [e] at h
      cases v with
      | arr vs =>
        by_cases hs : ∃ names : List Str, vs = names.map .str
        · obtain ⟨names, rfl⟩ := hs
          exact ⟨names, .present _ _ (get_some_iff.1 e) ((strings_iff _ _).2 rfl), (hread names).1 h⟩
        · have h : Koops.readFlags {} vs = some t := h
          rw [readFlags_not_strings (fun names e => hs ⟨names, e⟩)] at h
          cases h
      | _ => cases h
  · rintro ⟨names, (h | ⟨vs, _, h, hs⟩), ht⟩
    · rw [get_none_iff.2 h]; exact (hread []).2 ht
    · rw [get_some_iff.2 h, (strings_iff _ _).1 hs]; exact (hread names).2 ht

theorem readModules_iff (vs : List Value) (i : Nat) (hi : i ≤ 127) (names : List Str) :
    Koops.readModules 128 (128 * 8) i vs = .ok names ↔ List.Forall₂ StrDoc vs names ∧ i + names.length ≤ 127 := by
  rw [strings_iff]
  induction vs generalizing i names with
  | nil =>
    unfold Koops.readModules
    rw [if_pos (by omega)]
    cases names with
    | nil => simpa using hi
    | cons => simp
  | cons v vs ih =>
    cases v with
    | str s =>
      unfold Koops.readModules
      by_cases h : i = 127
      · subst h
        cases names with
        | nil => simp
        | cons a names => simp
      · have hg : ¬ i + 1 = 128 := by omega
        simp only [hg, if_false]
        rw [if_pos (by omega)]
        cases names with
        | nil =>
          cases Koops.readModules 128 (128 * 8) (i + 1) vs <;> simp [bind, Out.bind]
        | cons a names =>
          have := ih (i + 1) (by omega) names
          cases e : Koops.readModules 128 (128 * 8) (i + 1) vs with
          | ok r =>
            rw [e] at this
            simp only [Out.bind_ok, Out.ok.injEq, List.cons.injEq, List.map_cons, Value.str.injEq, List.length_cons] at this ⊢
            constructor
            · rintro ⟨rfl, rfl⟩
              have := this.1 rfl
              exact ⟨⟨rfl, this.1⟩, by omega⟩
            · rintro ⟨⟨rfl, h⟩, hn⟩
              exact ⟨rfl, this.2 ⟨h, by omega⟩⟩
          | _ =>
            rw [e] at this
            simp only [reduceCtorEq, false_iff, not_and] at this
            constructor
            · intro h; cases h
            · rintro ⟨h, hn⟩
              simp only [List.map_cons, List.cons.injEq, List.length_cons] at h hn
              exact absurd (by omega) (this h.2)
    | _ =>
      constructor
      · intro h; cases h
      · rintro ⟨h, _⟩
        cases names <;> simp at h

theorem modules_iff {l : List (Str × Value)} {m : Option (List Str)} :
    Koops.modulesFromJson (.obj l) = .ok (some m) ↔ ModulesDoc l m := by
  unfold Koops.modulesFromJson ModulesDoc
  simp only [← get_some_iff, ← get_none_iff]
  cases get (.obj l) c!"modules" with
  | none => simp [eq_comm]
  | some v =>
    cases v with
    | arr vs =>
      have := readModules_iff vs 0 (by omega)
      simp only [Nat.zero_add] at this
      dsimp only
      constructor
      · intro h
        cases e : Koops.readModules 128 (128 * 8) 0 vs with
        | ok names =>
          rw [e] at h
          cases h
          have := (this names).1 e
          exact .inr ⟨vs, names, rfl, this.1, this.2, rfl⟩
        | _ => rw [e] at h; cases h
      · rintro (⟨h, _⟩ | ⟨vs', names, h, h1, h2, rfl⟩)
        · cases h
        · cases h
          rw [(this names).2 ⟨h1, h2⟩]; rfl
    | _ =>
      constructor
      · intro h; cases h
      · rintro (⟨h, _⟩ | ⟨vs', names, h, _⟩) <;> cases h

/-- **C123** (kernel oopses). -/
theorem C123_koops (j : Value) (t : KoopsTrace) : Koops.fromJson j = .ok (some t) ↔ KoopsDoc j t := by
  have hhead : ∀ a, Koops.headFromJson j = some a ↔ ∃ l, j = .obj l ∧
      Text l c!"version" none a.1 ∧ Text l c!"raw_oops" none a.2.1 ∧ TaintsDoc l a.2.2 := by
    rintro ⟨a, b, c⟩
    refine by_object (f := Koops.headFromJson) (fun j h => by unfold Koops.headFromJson; rw [if_pos h]) (fun l => ?_) j
    unfold Koops.headFromJson
    rw [if_neg (by simp [isObject])]
    simp only [Option.bind_eq_some_iff, text_iff, taints_iff]
    constructor
    · rintro ⟨a0, h0, a1, h1, a2, h2, e⟩
      cases e
      exact ⟨h0, h1, h2⟩
    · rintro ⟨h0, h1, h2⟩
      exact ⟨_, h0, _, h1, _, h2, rfl⟩
  unfold Koops.fromJson KoopsDoc
  cases e : Koops.headFromJson j with
  | none =>
    constructor
    · intro h; cases h
    · rintro ⟨l, hj, h0, h1, h2, _⟩
      rw [(hhead (t.version, t.rawOops, t.taint)).2 ⟨l, hj, h0, h1, h2⟩] at e
      cases e
  | some a =>
    obtain ⟨version, rawOops, taint⟩ := a
    obtain ⟨l, rfl, h0, h1, h2⟩ := (hhead _).1 e
    have hm : ∀ m, _ ↔ _ := fun m => modules_iff (l := l) (m := m)
    dsimp only
    constructor
    · intro h
      cases e' : Koops.modulesFromJson (.obj l) with
      | ok o =>
        rw [e'] at h
        cases o with
        | none => cases h
        | some m =>
          simp only [Out.ok.injEq, Option.bind_eq_some_iff] at h
          obtain ⟨frames, hf, e⟩ := h
          cases e
          exact ⟨l, rfl, h0, h1, h2, (hm m).1 e', (items_iff koops_frame_iff).1 hf, rfl⟩
      | _ => rw [e'] at h; cases h
    · rintro ⟨l', e', k0, k1, k2, k3, k4, k5⟩
      cases e'
      have := (hhead (t.version, t.rawOops, t.taint)).2 ⟨l, rfl, k0, k1, k2⟩
      rw [e] at this
      cases this
      rw [(hm _).2 k3]
      simp only [Out.ok.injEq, Option.bind_eq_some_iff]
      refine ⟨_, (items_iff koops_frame_iff).2 k4, ?_⟩
      cases t; cases k5; rfl

theorem role_iff {l : List (Str × Value)} {r : Satyr.Rpm.Role} : Rpm.readRole (.obj l) = some r ↔
    NoMember l c!"package_role" ∧ r = .unknown ∨ HasMember l c!"package_role" (.str c!"affected") ∧ r = .affected := by
  unfold Rpm.readRole
  simp only [← get_some_iff, ← get_none_iff, ne_eq, strcmp_eq_zero]
  cases get (.obj l) c!"package_role" with
  | none => simp [eq_comm]
  | some v =>
    cases v with
    | str s =>
      by_cases e : s = c!"affected"
      · simp [e, eq_comm]
      · simp [e]
    | _ => simp

theorem package_iff (j : Value) (t : Satyr.Rpm.Package) : Rpm.packageFromJson j = some t ↔ PackageDoc j t := by
  unfold PackageDoc
  refine by_object (f := Rpm.packageFromJson) (fun j h => by unfold Rpm.packageFromJson; rw [if_pos h]) (fun l => ?_) j
  unfold Rpm.packageFromJson
  rw [if_neg (by simp [isObject])]
  simp only [Option.bind_eq_some_iff, text_iff, u32_iff, u64_iff, role_iff]
  constructor
  · rintro ⟨a0, h0, a1, h1, a2, h2, a3, h3, a4, h4, a5, h5, a6, h6, e⟩
    cases e
    exact ⟨h0, h1, h2, h3, h4, h5, h6, rfl⟩
  · rintro ⟨h0, h1, h2, h3, h4, h5, h6, h7⟩
    refine ⟨_, h0, _, h1, _, h2, _, h3, _, h4, _, h5, _, h6, ?_⟩
    cases t; cases h7; rfl

/-- **C123** (lists of packages). -/
theorem C123_packages (j : Value) (ps : List Satyr.Rpm.Package) : Rpm.listFromJson j = some ps ↔ PackagesDoc j ps := by
  unfold Rpm.listFromJson PackagesDoc
  cases j with
  | arr vs => simp [readAll_iff package_iff]
  | _ => simp

theorem forgiving_iff {l : List (Str × Value)} {k : Str} {r : Option Str} : r = (readStr (.obj l) k none).getD none ↔
    (Text l k none r ∨ (∀ d, ¬ Text l k none d) ∧ r = none) := by
  simp only [← text_iff]
  cases readStr (.obj l) k none with
  | none => simp
  | some s => simp [eq_comm]

/-- **C123** (operating systems). -/
theorem C123_os (j : Value) (t : Satyr.Os.OperatingSystem) : Os.fromJson j = some t ↔ OsDoc j t := by
  unfold OsDoc
  refine by_object (f := Os.fromJson) (fun j h => by unfold Os.fromJson; rw [if_pos h]) (fun l => ?_) j
  unfold Os.fromJson
  rw [if_neg (by simp [isObject])]
  simp only [Option.bind_eq_some_iff, text_iff, u64_iff]
  constructor
  · rintro ⟨a0, h0, a1, h1, a2, h2, a3, h3, e⟩
    cases e
    exact ⟨h0, h1, h2, h3, forgiving_iff.1 rfl, forgiving_iff.1 rfl, rfl⟩
  · rintro ⟨h0, h1, h2, h3, h4, h5, h6⟩
    refine ⟨_, h0, _, h1, _, h2, _, h3, ?_⟩
    rw [← forgiving_iff.2 h4, ← forgiving_iff.2 h5]
    cases t; cases h6; rfl

end Satyr.Json
