import Verif.Heap.JsonProps
/-!
# Messages about JSON documents that cannot be read

C146: a document is refused exactly if something in it is wrong, and the message says what.
-/
namespace Satyr.Heap
open Satyr.CStr
open Satyr.Json
open Satyr.Frames

/-! ## Specification -/

/-- The text of a message about something of a wrong type. -/
def complaint (name type : Str) : Str := c!"Invalid type of `" ++ name ++ c!"`; `" ++ type ++ c!"` expected"

def isInt : Value → Bool
  | .num _ => true
  | _ => false
def isText : Value → Bool
  | .str _ => true
  | _ => false
def isBoolean : Value → Bool
  | .bool _ => true
  | _ => false
def isArray : Value → Bool
  | .arr _ => true
  | _ => false

/-- The members of a document; all of them may be missing. -/
inductive Member
  | int (key : Str) | text (key : Str) | boolean (key : Str)
  /-- A text, or if it is missing another one. -/
  | choice (key other : Str)
  /-- An array of structures. -/
  | list (key : Str) (of : Kind)
  /-- An array of threads, one of which may be marked. -/
  | threads (key : Str) (of : Kind)
  | taints | modules | role | platform

/-- The members of each kind of document. -/
def schema : Kind → List Member
  | .coreFrame => [.int c!"address", .text c!"build_id", .int c!"build_id_offset", .text c!"function_name", .text c!"file_name", .text c!"fingerprint",
      .boolean c!"fingerprint_hashed"]
  | .coreThread => [.list c!"frames" .coreFrame]
  | .coreTrace => [.int c!"signal", .text c!"executable", .boolean c!"only_crash_thread", .threads c!"stacktrace" .coreThread]
  | .koopsFrame => [.int c!"address", .boolean c!"reliable", .text c!"function_name", .int c!"function_offset", .int c!"function_length", .text c!"module_name",
      .int c!"from_address", .text c!"from_function_name", .int c!"from_function_offset", .int c!"from_function_length", .text c!"from_module_name",
      .text c!"special_stack"]
  | .koopsTrace => [.text c!"version", .text c!"raw_oops", .taints, .modules, .list c!"frames" .koopsFrame]
  | .javaFrame => [.text c!"name", .text c!"file_name", .int c!"file_line", .text c!"class_path", .boolean c!"is_native", .boolean c!"is_exception",
      .text c!"message"]
  | .javaThread => [.text c!"name", .list c!"frames" .javaFrame]
  | .javaTrace => [.list c!"threads" .javaThread]
  | .jsFrame => [.text c!"file_name", .text c!"function_name", .int c!"file_line", .int c!"line_column"]
  | .jsTrace => [.text c!"exception_name", .list c!"stacktrace" .jsFrame, .platform]
  | .pythonFrame => [.choice c!"file_name" c!"special_file", .choice c!"function_name" c!"special_function", .text c!"line_contents", .int c!"file_line"]
  | .pythonTrace => [.text c!"exception_name", .list c!"stacktrace" .pythonFrame]
  | .rubyFrame => [.text c!"file_name", .choice c!"function_name" c!"special_function", .int c!"file_line", .int c!"block_level", .int c!"rescue_level"]
  | .rubyTrace => [.text c!"exception_name", .list c!"stacktrace" .rubyFrame]
  | .package => [.text c!"name", .text c!"version", .text c!"release", .text c!"architecture", .int c!"epoch", .int c!"install_time", .role]
  | _ => []

/-- What the documents are called in messages. -/
def called : Kind → Str
  | .coreThread | .javaThread => c!"thread"
  | .coreTrace | .koopsTrace | .javaTrace | .jsTrace | .pythonTrace | .rubyTrace => c!"stacktrace"
  | .package => c!"package"
  | _ => c!"frame"

/-- The member `key` is there and is not of the type. -/
def IsNot (has : Value → Bool) (type : Str) (v : Value) (key msg : Str) : Prop :=
  ∃ u, get v key = some u ∧ has u = false ∧ msg = complaint key type

/-- What is wrong with an engine or a runtime: it is missing, not a text, or not known. -/
def PartWrong (v : Value) (key : Str) (known : Str) (msg : Str) : Prop :=
  (get v key = none ∧ msg = c!"No '" ++ key ++ c!"' member") ∨ IsNot isText c!"string" v key msg ∨
  ∃ s, get v key = some (.str s) ∧ s ≠ c!"<unknown>" ∧ s ≠ known ∧ msg = c!"Unknown JavaScript " ++ key ++ c!" '" ++ s ++ c!"'"

/-- What is wrong with a member; `F` says what is wrong with the structures in it. -/
def Member.Wrong (F : Kind → Value → Str → Prop) (v : Value) : Member → Str → Prop
  | .int key, msg => IsNot isInt c!"int" v key msg
  | .text key, msg => IsNot isText c!"string" v key msg
  | .boolean key, msg => IsNot isBoolean c!"boolean" v key msg
  | .choice key other, msg => IsNot isText c!"string" v key msg ∨ (get v key = none ∧ IsNot isText c!"string" v other msg)
  | .list key k, msg => IsNot isArray c!"array" v key msg ∨ ∃ l x, get v key = some (.arr l) ∧ x ∈ l ∧ F k x msg
  | .threads key k, msg => IsNot isArray c!"array" v key msg ∨
      ∃ l x, get v key = some (.arr l) ∧ x ∈ l ∧ (F k x msg ∨ IsNot isBoolean c!"boolean" x c!"crash_thread" msg)
  | .taints, msg => IsNot isArray c!"array" v c!"taint_flags" msg ∨
      ∃ l x, get v c!"taint_flags" = some (.arr l) ∧ x ∈ l ∧ isText x = false ∧ msg = complaint c!"taint flag" c!"string"
  | .modules, msg => IsNot isArray c!"array" v c!"modules" msg
  | .role, msg => IsNot isText c!"string" v c!"package_role" msg ∨
      ∃ s, get v c!"package_role" = some (.str s) ∧ s ≠ c!"affected" ∧ msg = c!"Invalid package role " ++ s
  | .platform, msg => ∃ u, get v c!"platform" = some u ∧ (PartWrong u c!"engine" c!"V8" msg ∨ PartWrong u c!"runtime" c!"Node.js" msg)

/-- What is wrong with a document whose structures are nested at most `d` deep. -/
def Fault : Nat → Kind → Value → Str → Prop
  | 0, _, _, _ => False
  | d + 1, k, v, msg => (isObject v = false ∧ msg = complaint (called k) c!"object") ∨ ∃ e ∈ schema k, e.Wrong (Fault d) v msg

/-- The kinds of documents. -/
def documents : List Kind :=
  [.coreFrame, .coreThread, .coreTrace, .koopsFrame, .koopsTrace, .javaFrame, .javaThread, .javaTrace, .jsFrame, .jsTrace, .pythonFrame, .pythonTrace,
    .rubyFrame, .rubyTrace, .package]

/-! ## Lemmas -/

theorem error_iff {α : Type} (a msg : Str) : (Except.error a : Except Str α) = .error msg ↔ msg = a :=
  ⟨fun h => by injection h with h; exact h.symm, fun h => by rw [h]⟩

theorem complaint_eq (name type : Str) : typeError name type = complaint name type := by
  simp [typeError, complaint]

/-- Which member a step reads. -/
inductive Links : Step → Member → Prop
  | u64 (key d) : Links (u64 key d) (.int key)
  | u32 (key d) : Links (u32 key d) (.int key)
  | u16 (key d) : Links (u16 key d) (.int key)
  | flag (key d) : Links (flag key d) (.boolean key)
  | text (key t) : Links (.text key t) (.text key)
  | either (key other t) : Links (.either key other t) (.choice key other)
  | list (key k) : Links (.list key k false) (.list key k)
  | threads (key k) : Links (.list key k true) (.threads key k)
  | taints : Links taintFlags .taints
  | modules : Links .modules .modules
  | role : Links role .role
  | platform : Links .platform .platform

theorem steps_schema {k : Kind} (hk : k ∈ documents) : List.Forall₂ Links (steps k) (schema k) := by
  cases k <;> first | (exfalso; revert hk; decide) | (unfold steps schema; repeat constructor)

/-- What makes a step fail. -/
def StepFault (item : Kind → Value → Except Str Part) (j : Value) (e : Member) (msg : Str) : Prop :=
  e.Wrong (fun k v msg => item k v = .error msg) j msg

theorem num_fault (j : Value) (key msg : Str) {r : Option Nat} (h : r = none ↔ ∃ u, get j key = some u ∧ isInt u = false) (f : Nat → List Int) :
    (match r with | none => (Except.error (typeError key c!"int") : Except Str (List Int)) | some n => .ok (f n)) = .error msg ↔ IsNot isInt c!"int" j key msg := by
  cases r with
  | none =>
    obtain ⟨u, h1, h2⟩ := h.1 rfl
    constructor
    · intro e; injection e with e; exact ⟨u, h1, h2, by rw [← e, complaint_eq]⟩
    · rintro ⟨_, _, _, rfl⟩; rw [complaint_eq]
  | some n =>
    constructor
    · intro e; cases e
    · rintro ⟨u, h1, h2, _⟩; cases h.2 ⟨u, h1, h2⟩

theorem readU64_none (j : Value) (key : Str) (d : Nat) : readU64 j key d = none ↔ ∃ u, get j key = some u ∧ isInt u = false := by
  unfold readU64
  cases Json.get j key with
  | none => simp
  | some u => cases u <;> simp [isInt]

theorem readU32_none (j : Value) (key : Str) (d : Nat) : readU32 j key d = none ↔ ∃ u, get j key = some u ∧ isInt u = false := by
  unfold readU32
  cases Json.get j key with
  | none => simp
  | some u => cases u <;> simp [isInt]

theorem readU16_none (j : Value) (key : Str) (d : Nat) : readU16 j key d = none ↔ ∃ u, get j key = some u ∧ isInt u = false := by
  unfold readU16
  cases Json.get j key with
  | none => simp
  | some u => cases u <;> simp [isInt]

theorem readFlags_none : ∀ (l : List Value) (t : Taints), Koops.readFlags t l = none ↔ ∃ x ∈ l, isText x = false
  | [], t => by simp [Koops.readFlags]
  | v :: l, t => by
    cases v <;> simp [Koops.readFlags, isText, readFlags_none l]

theorem partOf_fault (j : Value) (key known msg missing unknown : Str) (of : Str → Nat)
    (hof : ∀ s, of s = 0 ↔ s ≠ known) (h1 : missing = c!"No '" ++ key ++ c!"' member") (h2 : unknown = c!"Unknown JavaScript " ++ key ++ c!" '") :
    partOf j key missing unknown of = .error msg ↔ PartWrong j key known msg := by
  unfold partOf PartWrong IsNot
  cases hg : Json.get j key with
  | none =>
    constructor
    · intro e; injection e with e; exact .inl ⟨rfl, by rw [← e, h1]⟩
    · rintro (⟨_, rfl⟩ | ⟨_, h, _⟩ | ⟨_, h, _⟩)
      · rw [h1]
      · cases h
      · cases h
  | some u =>
    have other : isText u = false → ((Except.error (typeError key c!"string") : Except Str Nat) = .error msg ↔
        ((some u = none ∧ msg = c!"No '" ++ key ++ c!"' member") ∨ (∃ u_1, some u = some u_1 ∧ isText u_1 = false ∧ msg = complaint key c!"string") ∨
        ∃ s, some u = some (.str s) ∧ s ≠ c!"<unknown>" ∧ s ≠ known ∧ msg = c!"Unknown JavaScript " ++ key ++ c!" '" ++ s ++ c!"'")) := by
      intro hu
      constructor
      · intro e; injection e with e; exact .inr (.inl ⟨u, rfl, hu, by rw [← e, complaint_eq]⟩)
      · rintro (⟨h, _⟩ | ⟨_, h, _, rfl⟩ | ⟨_, h, _⟩)
        · cases h
        · rw [complaint_eq]
        · cases h; cases hu
    cases u with
    | str s =>
      dsimp only
      by_cases hs : s = c!"<unknown>"
      · rw [if_pos (strcmp_eq_zero.2 hs)]
        constructor
        · intro e; cases e
        · rintro (⟨h, _⟩ | ⟨_, h, h', _⟩ | ⟨_, h, h', _⟩)
          · cases h
          · cases h; cases h'
          · cases h; exact absurd hs h'
      · rw [if_neg fun h => hs (strcmp_eq_zero.1 h)]
        by_cases ho : of s = 0
        · rw [if_pos ho]
          constructor
          · intro e
            injection e with e
            exact .inr (.inr ⟨s, rfl, hs, (hof s).1 ho, by rw [← e, h2]; simp⟩)
          · rintro (⟨h, _⟩ | ⟨_, h, h', _⟩ | ⟨_, h, h', _, rfl⟩)
            · cases h
            · cases h; cases h'
            · cases h; rw [h2]; simp
        · rw [if_neg ho]
          constructor
          · intro e; cases e
          · rintro (⟨h, _⟩ | ⟨_, h, h', _⟩ | ⟨_, h, _, h', _⟩)
            · cases h
            · cases h; cases h'
            · cases h; exact absurd ((hof s).2 h') ho
    | _ => exact other rfl

theorem engineOf_zero (s : Str) : Js.engineOf s = 0 ↔ s ≠ c!"V8" := by
  unfold Js.engineOf
  split
  · rename_i h; simp [strcmp_eq_zero.1 h]
  · rename_i h; simp only [true_iff]; exact fun e => h (strcmp_eq_zero.2 e)

theorem runtimeOf_zero (s : Str) : Js.runtimeOf s = 0 ↔ s ≠ c!"Node.js" := by
  unfold Js.runtimeOf
  split
  · rename_i h; simp [strcmp_eq_zero.1 h]
  · rename_i h; simp only [true_iff]; exact fun e => h (strcmp_eq_zero.2 e)

/-- A platform is refused with the message of a part of it; if any part is wrong it is refused. -/
theorem platformOf_fault (u : Value) :
    (∀ msg, platformOf u = .error msg → PartWrong u c!"engine" c!"V8" msg ∨ PartWrong u c!"runtime" c!"Node.js" msg) ∧
    (∀ msg, PartWrong u c!"engine" c!"V8" msg ∨ PartWrong u c!"runtime" c!"Node.js" msg → ∃ msg', platformOf u = .error msg') := by
  have e := fun msg => partOf_fault u c!"engine" c!"V8" msg c!"No 'engine' member" c!"Unknown JavaScript engine '" Js.engineOf engineOf_zero rfl rfl
  have r := fun msg => partOf_fault u c!"runtime" c!"Node.js" msg c!"No 'runtime' member" c!"Unknown JavaScript runtime '" Js.runtimeOf runtimeOf_zero rfl rfl
  unfold platformOf
  cases he : partOf u c!"engine" c!"No 'engine' member" c!"Unknown JavaScript engine '" Js.engineOf with
  | error a =>
    refine ⟨fun msg h => ?_, fun _ _ => ⟨a, rfl⟩⟩
    injection h with h
    exact .inl ((e msg).1 (by rw [he, h]))
  | ok n =>
    cases hr : partOf u c!"runtime" c!"No 'runtime' member" c!"Unknown JavaScript runtime '" Js.runtimeOf with
    | error a =>
      refine ⟨fun msg h => ?_, fun _ _ => ⟨a, rfl⟩⟩
      injection h with h
      exact .inr ((r msg).1 (by rw [hr, h]))
    | ok n' =>
      refine ⟨(fun msg h => by cases h), fun msg h => ?_⟩
      rcases h with h | h
      · have := (e msg).2 h; rw [he] at this; cases this
      · have := (r msg).2 h; rw [hr] at this; cases this

theorem itemsOf_error {f : Value → Except Str Chain} {marked : Bool} {msg : Str} : ∀ {l : List Value} {x : Part}, itemsOf f marked l x = .error msg →
    ∃ v ∈ l, f v = .error msg ∨ (marked = true ∧ IsNot isBoolean c!"boolean" v c!"crash_thread" msg)
  | [], x, h => by cases h
  | v :: l, x, h => by
    rw [itemsOf] at h
    cases hv : f v with
    | error e => rw [hv] at h; injection h with h; exact ⟨v, by simp, .inl (by rw [hv, h])⟩
    | ok c =>
      rw [hv] at h
      dsimp only at h
      cases hm : markOf marked v with
      | none =>
        rw [hm] at h
        injection h with h
        refine ⟨v, by simp, .inr ?_⟩
        unfold markOf at hm
        split at hm
        · cases hm
        · rename_i hmk
          refine ⟨by simpa using hmk, ?_⟩
          cases hg : Json.get v c!"crash_thread" with
          | none => rw [hg] at hm; cases hm
          | some u => exact ⟨u, hg, by rw [hg] at hm; cases u <;> first | rfl | (cases hm), by rw [← h, complaint_eq]⟩
      | some b =>
        rw [hm] at h
        obtain ⟨v', hv', h'⟩ := itemsOf_error h
        exact ⟨v', by simp [hv'], h'⟩

theorem itemsOf_fails {f : Value → Except Str Chain} {marked : Bool} : ∀ {l : List Value} {x : Part} {v : Value} {msg : Str}, v ∈ l →
    f v = .error msg ∨ (marked = true ∧ IsNot isBoolean c!"boolean" v c!"crash_thread" msg) → ∃ msg', itemsOf f marked l x = .error msg'
  | a :: l, x, v, msg, hv, h => by
    rw [itemsOf]
    cases ha : f a with
    | error e => exact ⟨e, rfl⟩
    | ok c =>
      dsimp only
      cases hm : markOf marked a with
      | none => exact ⟨_, rfl⟩
      | some b =>
        rcases List.mem_cons.1 hv with rfl | hv
        · exfalso
          rcases h with h | ⟨rfl, u, h1, h2, _⟩
          · rw [ha] at h; cases h
          · unfold markOf at hm
            rw [if_neg (by simp), h1] at hm
            cases u <;> first | (cases hm; done) | (cases h2; done)
        · exact itemsOf_fails hv h

theorem readModules_some {j : Value} {o} (h : Koops.modulesFromJson j = .ok o) :
    (o = none → ∃ u, get j c!"modules" = some u ∧ isArray u = false) ∧ (∀ u, get j c!"modules" = some u → isArray u = false → o = none) := by
  unfold Koops.modulesFromJson at h
  cases hg : Json.get j c!"modules" with
  | none => rw [hg] at h; cases h; simp
  | some u =>
    rw [hg] at h
    cases u with
    | arr l =>
      dsimp only at h
      cases hr : Koops.readModules 128 (128 * 8) 0 l with
      | ok r => rw [hr] at h; cases h; simp [isArray]
      | abort => rw [hr] at h; cases h
      | ub => rw [hr] at h; cases h
    | _ => cases h; simp [isArray]

/-- A step fails with the message of its member; if anything in it is wrong it fails. -/
theorem stepOf_fault {item : Kind → Value → Except Str Part} {k : Kind} {j : Value} {x : Part} {t : Step} {e : Member} (h : Links t e)
    (hm : e = .modules → ∃ o, Koops.modulesFromJson j = .ok o) :
    (∀ msg, stepOf item k j x t = .error msg → StepFault item j e msg) ∧ (∀ msg, StepFault item j e msg → ∃ msg', stepOf item k j x t = .error msg') := by
  have dat : ∀ {f : Value → Except Str (List Int)} {P : Str → Prop}, (∀ msg, f j = .error msg ↔ P msg) →
      (∀ msg, stepOf item k j x (.data f) = .error msg → P msg) ∧ (∀ msg, P msg → ∃ msg', stepOf item k j x (.data f) = .error msg') := by
    intro f P hf
    constructor
    · intro msg h
      rw [← hf]
      simp only [stepOf] at h
      cases hj : f j with
      | error a => rw [hj] at h; injection h with h; rw [h]
      | ok l => rw [hj] at h; cases h
    · intro msg h
      exact ⟨msg, by simp only [stepOf, (hf msg).2 h]⟩
  have items : ∀ (key : Str) (kind : Kind) (marked : Bool) (P : Str → Prop),
      (∀ msg, P msg ↔ IsNot isArray c!"array" j key msg ∨ ∃ l v, get j key = some (.arr l) ∧ v ∈ l ∧
        (item kind v = .error msg ∨ (marked = true ∧ IsNot isBoolean c!"boolean" v c!"crash_thread" msg))) →
      (∀ msg, stepOf item k j x (.list key kind marked) = .error msg → P msg) ∧
      (∀ msg, P msg → ∃ msg', stepOf item k j x (.list key kind marked) = .error msg') := by
    intro key kind marked P hP
    have hmap : ∀ v msg, ((item kind v).map fun y => y.chain kind 0) = .error msg ↔ item kind v = .error msg := by
      intro v msg
      cases item kind v <;> simp [Except.map]
    simp only [stepOf]
    cases hg : Json.get j key with
    | none =>
      refine ⟨(fun msg h => by cases h), fun msg h => ?_⟩
      rcases (hP msg).1 h with ⟨u, h1, _⟩ | ⟨l, v, h1, _⟩
      · rw [hg] at h1; cases h1
      · rw [hg] at h1; cases h1
    | some u =>
      cases u with
      | arr l =>
        dsimp only
        refine ⟨fun msg h => (hP msg).2 (.inr ?_), fun msg h => ?_⟩
        · obtain ⟨v, hv, h'⟩ := itemsOf_error h
          refine ⟨l, v, hg, hv, ?_⟩
          rwa [hmap] at h'
        · rcases (hP msg).1 h with ⟨u, h1, h2, _⟩ | ⟨l', v, h1, hv, h2⟩
          · rw [hg] at h1; cases h1; cases h2
          · rw [hg] at h1
            cases h1
            exact itemsOf_fails hv (by rwa [hmap])
      | _ =>
        refine ⟨fun msg h => (hP msg).2 (.inl ⟨_, hg, rfl, ?_⟩), fun msg h => ⟨_, rfl⟩⟩
        injection h with h
        rw [← h, complaint_eq]
  have txt : ∀ (key : Str) (a b : Except Str Part) (c : Str → Except Str Part), (∀ s msg, c s ≠ .error msg) → ∀ msg,
      (match Json.get j key with | none => a | some (.str s) => c s | some _ => .error (typeError key c!"string")) = .error msg ↔
        (get j key = none ∧ a = .error msg) ∨ IsNot isText c!"string" j key msg := by
    intro key a b c hc msg
    unfold IsNot
    cases Json.get j key with
    | none => simp
    | some u => cases u <;> simp [isText, hc, complaint_eq, error_iff, -Except.error.injEq]
  cases h with
  | u64 key d => exact dat fun msg => num_fault j key msg (readU64_none j key d) _
  | u32 key d => exact dat fun msg => num_fault j key msg (readU32_none j key d) _
  | u16 key d => exact dat fun msg => num_fault j key msg (readU16_none j key d) _
  | flag key d =>
    refine dat fun msg => ?_
    simp only [StepFault, Member.Wrong]
    unfold readBool IsNot
    cases Json.get j key with
    | none => simp
    | some u => cases u <;> simp [isBoolean, complaint_eq, error_iff, -Except.error.injEq]
  | text key t =>
    have := txt key (.ok x) (.ok x) (fun s => .ok (x.put k t s)) (by simp)
    refine ⟨fun msg h => ?_, fun msg h => ⟨msg, ?_⟩⟩
    · rcases (this msg).1 h with ⟨_, h⟩ | h
      · cases h
      · exact h
    · exact (this msg).2 (.inr h)
  | either key other t =>
    have h1 := txt key
    simp only [stepOf, StepFault, Member.Wrong]
    unfold IsNot
    cases Json.get j key with
    | none =>
      cases Json.get j other with
      | none => simp
      | some u => cases u <;> simp [isText, complaint_eq, error_iff, -Except.error.injEq]
    | some u => cases u <;> simp [isText, complaint_eq, error_iff, -Except.error.injEq]
  | list key kind =>
    refine items key kind false _ fun msg => ?_
    simp [StepFault, Member.Wrong]
  | threads key kind =>
    refine items key kind true _ fun msg => ?_
    simp [StepFault, Member.Wrong]
  | taints =>
    refine dat fun msg => ?_
    simp only [StepFault, Member.Wrong]
    unfold Koops.flagsFromJson IsNot
    cases hg : Json.get j c!"taint_flags" with
    | none => simp
    | some u =>
      cases u with
      | arr l =>
        dsimp only
        cases hr : Koops.readFlags {} l with
        | none =>
          obtain ⟨y, hy, hy'⟩ := (readFlags_none l {}).1 hr
          constructor
          · intro e; injection e with e; exact .inr ⟨l, y, rfl, hy, hy', by rw [← e, complaint_eq]⟩
          · rintro (⟨_, h, h', _⟩ | ⟨_, _, _, _, _, rfl⟩)
            · cases h; cases h'
            · rw [complaint_eq]
        | some t =>
          constructor
          · intro e; cases e
          · rintro (⟨_, h, h', _⟩ | ⟨l', y, h, hy, hy', _⟩)
            · cases h; cases h'
            · cases h
              have := (readFlags_none l {}).2 ⟨y, hy, hy'⟩
              rw [hr] at this
              cases this
      | _ => simp [isArray, complaint_eq, error_iff, -Except.error.injEq]
  | modules =>
    obtain ⟨o, ho⟩ := hm rfl
    obtain ⟨h1, h2⟩ := readModules_some ho
    simp only [stepOf, ho, StepFault, Member.Wrong]
    cases o with
    | none =>
      obtain ⟨u, hu, hu'⟩ := h1 rfl
      refine ⟨fun msg h => ?_, fun msg _ => ⟨_, rfl⟩⟩
      injection h with h
      exact ⟨u, hu, hu', by rw [← h, complaint_eq]⟩
    | some l =>
      refine ⟨(fun msg h => by cases l <;> cases h), fun msg h => ?_⟩
      obtain ⟨u, hu, hu', _⟩ := h
      cases h2 u hu hu'
  | role =>
    refine dat fun msg => ?_
    simp only [StepFault, Member.Wrong]
    unfold Rpm.readRole IsNot
    cases hg : Json.get j c!"package_role" with
    | none => simp
    | some u =>
      cases u with
      | str s =>
        dsimp only
        by_cases hs : s = c!"affected"
        · rw [if_neg (by simp [strcmp_eq_zero, hs])]
          simp [hs, isText]
        · rw [if_pos (by simp [strcmp_eq_zero, hs])]
          simp [hs, isText, error_iff, -Except.error.injEq]
      | _ => simp [isText, complaint_eq, error_iff, -Except.error.injEq]
  | platform =>
    simp only [stepOf, StepFault, Member.Wrong]
    cases hg : Json.get j c!"platform" with
    | none => simp
    | some u =>
      obtain ⟨h1, h2⟩ := platformOf_fault u
      dsimp only
      cases hp : platformOf u with
      | error a =>
        refine ⟨fun msg h => ⟨u, rfl, h1 msg (by rw [hp]; exact congrArg _ (by injection h))⟩, fun msg _ => ⟨_, rfl⟩⟩
      | ok n =>
        refine ⟨(fun msg h => by cases h), ?_⟩
        rintro msg ⟨u', h, h'⟩
        cases h
        obtain ⟨msg', h''⟩ := h2 msg h'
        rw [hp] at h''
        cases h''

theorem stepsOf_fault {item : Kind → Value → Except Str Part} {k : Kind} {j : Value} : ∀ {l : List Step} {es : List Member} {x : Part},
    List.Forall₂ Links l es → (.modules ∈ es → ∃ o, Koops.modulesFromJson j = .ok o) →
    (∀ msg, stepsOf item k j l x = .error msg → ∃ e ∈ es, StepFault item j e msg) ∧
    (∀ e ∈ es, ∀ msg, StepFault item j e msg → ∃ msg', stepsOf item k j l x = .error msg')
  | _, _, x, .nil, _ => ⟨(fun msg h => by cases h), fun e he => by cases he⟩
  | t :: l, e :: es, x, .cons h hl, hm => by
    obtain ⟨h1, h2⟩ := stepOf_fault (item := item) (k := k) (x := x) h (fun he => hm (by simp [he]))
    rw [stepsOf]
    cases hs : stepOf item k j x t with
    | error a =>
      refine ⟨fun msg hmsg => ⟨e, by simp, h1 msg ?_⟩, fun _ _ _ _ => ⟨a, rfl⟩⟩
      injection hmsg with hmsg
      rw [hs, hmsg]
    | ok y =>
      obtain ⟨g1, g2⟩ := stepsOf_fault (item := item) (k := k) (x := y) hl (fun he => hm (by simp [he]))
      refine ⟨fun msg hmsg => ?_, fun e' he' msg hf => ?_⟩
      · obtain ⟨e', he', hf⟩ := g1 msg hmsg
        exact ⟨e', by simp [he'], hf⟩
      · rcases List.mem_cons.1 he' with rfl | he'
        · obtain ⟨msg', h'⟩ := h2 msg hf
          rw [hs] at h'
          cases h'
        · exact g2 e' he' msg hf

/-- The structures in a document. -/
def Member.kind : Member → Option Kind
  | .list _ k | .threads _ k => some k
  | _ => none

theorem schema_level {k : Kind} {e : Member} {k' : Kind} (he : e ∈ schema k) (h : e.kind = some k') : level k' < level k ∧ k' ∈ documents ∧ k' ≠ .koopsTrace := by
  cases k <;> simp only [schema, List.mem_cons, List.not_mem_nil, or_false] at he <;> (try contradiction) <;> (try rcases he with rfl | rfl | rfl | rfl | rfl | rfl | rfl | rfl | rfl | rfl | rfl | rfl) <;>
    cases h <;> decide

theorem wrong_mono {F G : Kind → Value → Str → Prop} {v : Value} {e : Member} {msg : Str} (h : ∀ k, e.kind = some k → ∀ v msg, F k v msg → G k v msg)
    (hw : e.Wrong F v msg) : e.Wrong G v msg := by
  cases e with
  | list key k =>
    rcases hw with hw | ⟨l, x, h1, h2, h3⟩
    · exact .inl hw
    · exact .inr ⟨l, x, h1, h2, h k rfl x msg h3⟩
  | threads key k =>
    rcases hw with hw | ⟨l, x, h1, h2, h3 | h3⟩
    · exact .inl hw
    · exact .inr ⟨l, x, h1, h2, .inl (h k rfl x msg h3)⟩
    · exact .inr ⟨l, x, h1, h2, .inr h3⟩
  | _ => exact hw

theorem modules_schema {k : Kind} (h : Member.modules ∈ schema k) : k = .koopsTrace := by
  cases k <;> simp [schema] at h ⊢

theorem part_fault : ∀ (d : Nat) (k : Kind) (j : Value), level k ≤ d → k ∈ documents → (k = .koopsTrace → ∃ o, Koops.modulesFromJson j = .ok o) →
    (∀ msg, partOfJson d k j = .error msg → Fault d k j msg) ∧ (∀ msg, Fault d k j msg → ∃ msg', partOfJson d k j = .error msg')
  | 0, k, j, h, _, _ => by cases k <;> simp [level] at h
  | d + 1, k, j, h, hk, hm => by
    rw [partOfJson]
    cases ho : isObject j with
    | false =>
      rw [if_pos rfl]
      refine ⟨fun msg h => .inl ⟨ho, ?_⟩, fun msg _ => ⟨_, rfl⟩⟩
      injection h with h
      rw [← h, complaint_eq]
      rfl
    | true =>
      rw [if_neg (by simp)]
      obtain ⟨h1, h2⟩ := stepsOf_fault (item := partOfJson d) (k := k) (j := j) (x := { texts := List.replicate (texts k).length none })
        (steps_schema hk) (fun he => hm (modules_schema he))
      have ih : ∀ {e}, e ∈ schema k → ∀ k', e.kind = some k' → ∀ v, (∀ msg, partOfJson d k' v = .error msg → Fault d k' v msg) ∧
          (∀ msg, Fault d k' v msg → ∃ msg', partOfJson d k' v = .error msg') := by
        intro e he k' hk' v
        obtain ⟨g1, g2, g3⟩ := schema_level he hk'
        exact part_fault d k' v (by omega) g2 (fun h => absurd h g3)
      refine ⟨fun msg hmsg => ?_, fun msg hf => ?_⟩
      · obtain ⟨e, he, hw⟩ := h1 msg hmsg
        exact .inr ⟨e, he, wrong_mono (fun k' hk' v msg => (ih he k' hk' v).1 msg) hw⟩
      · rcases hf with ⟨hf, _⟩ | ⟨e, he, hw⟩
        · rw [ho] at hf; cases hf
        · cases e with
          | list key k' =>
            rcases hw with hw | ⟨l, x, g1, g2, g3⟩
            · exact h2 _ he msg (.inl hw)
            · obtain ⟨msg', hp⟩ := (ih he k' rfl x).2 msg g3
              exact h2 _ he msg' (.inr ⟨l, x, g1, g2, hp⟩)
          | threads key k' =>
            rcases hw with hw | ⟨l, x, g1, g2, g3 | g3⟩
            · exact h2 _ he msg (.inl hw)
            · obtain ⟨msg', hp⟩ := (ih he k' rfl x).2 msg g3
              exact h2 _ he msg' (.inr ⟨l, x, g1, g2, .inl hp⟩)
            · exact h2 _ he msg (.inr ⟨l, x, g1, g2, .inr g3⟩)
          | _ => exact h2 _ he msg hw

/-! ## C146 -/

/-- **C146**: unless memory runs out, either something in the document is wrong, the result is NULL, and the message is about
something in the document that is wrong, or nothing is wrong, there is a result and the place for the message is as before. (For
a JavaScript stack trace there must be no message from before, and for a kernel oops the modules must be fewer than 128 texts.) -/
theorem C146_message_partial (A : Allocator) (k : Kind) (j : Value) (m : Mem) (e : Ptr) (hk : k ∈ documents)
    (hjs : k = .jsTrace → e = 0) (hko : k = .koopsTrace → FewModules j) :
    read A 3 k j ⟨m, some e⟩ = .abort ∨
    (∃ s q msg, read A 3 k j ⟨m, some e⟩ = .ok (0, s) ∧ s.err = some q ∧ q ≠ 0 ∧ s.mem q = some (.text msg) ∧ Fault 3 k j msg) ∨
    (∃ p m', read A 3 k j ⟨m, some e⟩ = .ok (p, ⟨m', some e⟩) ∧ p ≠ 0 ∧ ∀ msg, ¬ Fault 3 k j msg) := by
  have hr : k ≠ .report := by rintro rfl; revert hk; decide
  have hmod : k = .koopsTrace → ∃ o, Koops.modulesFromJson j = .ok o := fun h => (hko h).ok
  obtain ⟨h1, h2⟩ := part_fault 3 k j (level_le k) hk hmod
  rcases read_spec A 3 k j m (some e) (level_le k) hr ⟨fun h => by rw [hjs h], hmod⟩ with h | h
  · exact .inl h
  · refine .inr ?_
    cases hp : partOfJson 3 k j with
    | error msg =>
      rw [hp] at h
      obtain ⟨s, h, q, _, hq, rfl⟩ := h
      exact .inl ⟨_, q, msg, h, rfl, hq, set_eq _ _ _, h1 msg hp⟩
    | ok x =>
      rw [hp] at h
      obtain ⟨p, m', h, hb⟩ := h
      obtain ⟨_, r, fs, fa, fb, fc, fe, h0, _⟩ := hb
      refine .inr ⟨p, m', h, h0, fun msg hf => ?_⟩
      obtain ⟨msg', h'⟩ := h2 msg hf
      rw [hp] at h'
      cases h'

/-- **C146** for lists of packages. -/
theorem C146_packages (A : Allocator) (j : Value) (m : Mem) (err : Option Ptr) (r : Option Ptr) (s : State) (h : readPackageList A j ⟨m, err⟩ = .ok (r, s)) :
    r = none ↔ isArray j = false ∨ ∃ l x msg, j = .arr l ∧ x ∈ l ∧ Fault 1 .package x msg := by
  have key : ∀ x, Rpm.packageFromJson x = none ↔ ∃ msg, Fault 1 .package x msg := by
    intro x
    obtain ⟨h1, h2⟩ := part_fault 1 .package x (by decide) (by decide) (fun h => by cases h)
    have hp := package_part 0 x
    cases hx : partOfJson 1 .package x with
    | error msg =>
      rw [hx] at hp
      constructor
      · exact fun _ => ⟨msg, h1 msg hx⟩
      · intro _
        cases hr : Rpm.packageFromJson x with
        | none => rfl
        | some y => rw [hr] at hp; cases hp
    | ok y =>
      rw [hx] at hp
      constructor
      · intro hr; rw [hr] at hp; cases hp
      · rintro ⟨msg, hf⟩
        obtain ⟨msg', h'⟩ := h2 msg hf
        rw [hx] at h'
        cases h'
  have all : ∀ l, readAll Rpm.packageFromJson l = none ↔ ∃ x ∈ l, ∃ msg, Fault 1 .package x msg := by
    intro l
    induction l with
    | nil => simp [readAll]
    | cons v l ih =>
      rw [readAll]
      cases hv : Rpm.packageFromJson v with
      | none => exact iff_of_true rfl ⟨v, by simp, (key v).1 hv⟩
      | some y =>
        have hn : ¬ ∃ msg, Fault 1 .package v msg := fun h => by have := (key v).2 h; rw [hv] at this; cases this
        simp only [List.mem_cons, exists_eq_or_imp, hn, false_or, ← ih]
        cases readAll Rpm.packageFromJson l <;> simp
  have hj : r = none ↔ Rpm.listFromJson j = none := by
    rcases C144_packages A j m err with e | h1
    · rw [e] at h; cases h
    · cases hl : Rpm.listFromJson j with
      | none =>
        rw [hl] at h1
        obtain ⟨msg, s', e, _⟩ := h1
        rw [e] at h; cases h; simp
      | some ps =>
        rw [hl] at h1
        obtain ⟨q, m', g, e, _⟩ := h1
        rw [e] at h; cases h; simp
  rw [hj]
  cases j with
  | arr l =>
    rw [show Rpm.listFromJson (.arr l) = readAll Rpm.packageFromJson l from rfl, all]
    constructor
    · rintro ⟨x, hx, msg, hf⟩; exact .inr ⟨l, x, msg, rfl, hx, hf⟩
    · rintro (h | ⟨l', x, msg, h, hx, hf⟩)
      · cases h
      · cases h; exact ⟨x, hx, msg, hf⟩
  | _ => simp [isArray, Rpm.listFromJson]

/-! ## Examples -/

/-- The text of the message. -/
def messageOf (o : Out (Ptr × State)) : Option Str :=
  match o with
  | .ok (0, s) =>
    match s.err with
    | some q =>
      match s.mem q with
      | some (.text t) => some t
      | _ => none
    | none => none
  | _ => none

/-- A document in which two things are wrong: the message is about the first one. -/
example : messageOf (read firstFree 3 .coreTrace (coreDoc (.num 1)) ⟨noMem, some 0⟩) = some c!"Invalid type of `crash_thread`; `boolean` expected" ∧
    messageOf (read firstFree 3 .javaTrace (.obj [(c!"threads", .arr [.obj [(c!"frames", .arr [.obj [(c!"file_line", .str c!"x"), (c!"message", .num 1)]])]])])
      ⟨noMem, some 0⟩) = some c!"Invalid type of `file_line`; `int` expected" ∧
    messageOf (read firstFree 3 .jsTrace (.obj [(c!"platform", .obj [(c!"engine", .str c!"x")])]) ⟨noMem, some 0⟩) = some c!"Unknown JavaScript engine 'x'" := by
  set_option maxRecDepth 20000 in
  decide +kernel

example : Kind.coreTrace ∈ documents ∧ Fault 3 .coreTrace (coreDoc (.num 1)) c!"Invalid type of `crash_thread`; `boolean` expected" := by
  refine ⟨by decide, .inr ⟨.threads c!"stacktrace" .coreThread, by simp [schema], .inr ⟨_, _, rfl, List.mem_cons_of_mem _ (List.mem_cons_self ..), .inr ⟨_, rfl, rfl, rfl⟩⟩⟩⟩

/-- **C146** fails for JavaScript stack traces if there is a message from before: the document is refused although nothing in it is
wrong. -/
theorem C146_not_js : ∃ (A : Allocator) (j : Value) (m : Mem) (e : Ptr), (∀ msg, ¬ Fault 3 .jsTrace j msg) ∧
    seen (read A 3 .jsTrace j ⟨m, some e⟩) = some (0, 0, some e) := by
  refine ⟨firstFree, jsDoc, noMem, 100, fun msg hf => ?_, by decide +kernel⟩
  obtain ⟨msg', h⟩ := (part_fault 3 .jsTrace jsDoc (by decide) (by decide) (fun h => by cases h)).2 msg hf
  have : ∃ x, partOfJson 3 .jsTrace jsDoc = .ok x := ⟨_, by with_unfolding_all rfl⟩
  obtain ⟨x, hx⟩ := this
  rw [hx] at h
  cases h

end Satyr.Heap
