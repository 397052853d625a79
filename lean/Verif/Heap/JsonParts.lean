import Verif.Heap.JsonSteps
/-!
# What is read from JSON into memory

C144 for the different structures; the contents are those of the functions without memory (`Satyr.Json`).
-/
namespace Satyr.Heap
open Satyr.CStr
open Satyr.Json
open Satyr.Frames
open Satyr.Normalize (CoreFrame)

/-! ## Specification -/

/-- One list after the other. -/
def chainsOf : List Chain → Chain
  | [] => .nil
  | c :: l => c.append (chainsOf l)

def bit (b : Bool) : Int := if b then 1 else 0

/-- The members of the structures. -/
def coreFramePart (f : CoreFrame) : Part :=
  { data := [(f.address : Int), (f.buildIdOffset : Int), bit f.fingerprintHashed]
    texts := [f.buildId, f.functionName, f.fileName, f.fingerprint] }

def coreThreadPart (t : CoreThread) : Part :=
  { a := chainsOf (t.frames.map fun f => (coreFramePart f).chain .coreFrame 0) }

def coreTracePart (t : CoreTrace) : Part :=
  { data := [(t.signal : Int), bit t.onlyCrashThread], texts := [t.executable]
    a := chainsOf (t.threads.map fun t => (coreThreadPart t).chain .coreThread 0), crash := t.crashThread }

def koopsFramePart (f : KoopsFrame) : Part :=
  { data := [(f.address : Int), bit f.reliable, (f.functionOffset : Int), (f.functionLength : Int), (f.fromAddress : Int),
      (f.fromFunctionOffset : Int), (f.fromFunctionLength : Int)]
    texts := [f.functionName, f.moduleName, f.fromFunctionName, f.fromModuleName, f.specialStack] }

def koopsTracePart (t : KoopsTrace) : Part :=
  { data := taintData t.taint, texts := [t.version, t.rawOops, t.reason]
    a := chainsOf (t.frames.map fun f => (koopsFramePart f).chain .koopsFrame 0)
    b := match t.modules with
      | none => .nil
      | some l => moduleChain l }

def javaFramePart (f : JavaFrame) : Part :=
  { data := [(f.fileLine : Int), bit f.isNative, bit f.isException], texts := [f.name, f.fileName, f.classPath, f.message] }

def javaThreadPart (t : JavaThread) : Part :=
  { texts := [t.name], a := chainsOf (t.frames.map fun f => (javaFramePart f).chain .javaFrame 0) }

def javaTracePart (t : JavaTrace) : Part :=
  { a := chainsOf (t.threads.map fun t => (javaThreadPart t).chain .javaThread 0) }

def jsFramePart (f : JsFrame) : Part :=
  { data := [(f.fileLine : Int), (f.lineColumn : Int)], texts := [f.fileName, f.functionName] }

def jsTracePart (t : JsTrace) : Part :=
  { data := [(t.platform : Int)], texts := [t.exceptionName], a := chainsOf (t.frames.map fun f => (jsFramePart f).chain .jsFrame 0) }

def pythonFramePart (f : PythonFrame) : Part :=
  { data := [bit f.specialFile, bit f.specialFunction, (f.fileLine : Int)], texts := [f.fileName, f.functionName, f.lineContents] }

def pythonTracePart (t : PythonTrace) : Part :=
  { texts := [t.exceptionName], a := chainsOf (t.frames.map fun f => (pythonFramePart f).chain .pythonFrame 0) }

def rubyFramePart (f : RubyFrame) : Part :=
  { data := [bit f.specialFunction, (f.fileLine : Int), (f.blockLevel : Int), (f.rescueLevel : Int)]
    texts := [f.fileName, f.functionName] }

def rubyTracePart (t : RubyTrace) : Part :=
  { texts := [t.exceptionName], a := chainsOf (t.frames.map fun f => (rubyFramePart f).chain .rubyFrame 0) }

def packagePart (p : Satyr.Rpm.Package) : Part :=
  { data := [(p.epoch : Int), (p.installTime : Int), match p.role with
      | .unknown => 0
      | .affected => 1]
    texts := [p.name, p.version, p.release, p.architecture] }

/-- Reading that is to give `v`: the program aborts for lack of memory; or there is nothing to read, the result is NULL and
memory is as before, except for a message; or the result is a structure with the contents `v` in memory that was not in use, and
all other memory is as before, and so is the message. The pointer to the crash thread is the address of the thread number
`crash` of the list. -/
def Outcome (k : Kind) (m : Mem) (err : Option Ptr) (v : Option Part) (o : Out (Ptr × State)) : Prop :=
  o = .abort ∨ match v with
  | none => ∃ msg s, o = .ok (0, s) ∧ Reported m err msg s
  | some x => ∃ p m' r f, o = .ok (p, ⟨m', err⟩) ∧ m' p = some (.record r) ∧ r.crashThread = x.crash.elim 0 (nth m' r.a) ∧
      Holds m' (x.chain k r.crashThread) true p f ∧ Adds m m' f

/-! ## Lemmas -/

theorem outcome {k j m err r o} {v : Option Part} (h : Reads k j m err r o) (hv : r.toOption = v) : Outcome k m err v o := by
  subst hv
  rcases h with h | h
  · exact .inl h
  · cases r with
    | error msg => obtain ⟨s, h⟩ := h; exact .inr ⟨msg, s, h⟩
    | ok x =>
      obtain ⟨p, m', e, hb⟩ := h
      obtain ⟨r, f, h1, h2, h3, h4⟩ := hb.holds
      exact .inr ⟨p, m', r, f, e, h1, h2, h3, h4⟩

/-- Storing a text, or none. -/
def Part.opt (x : Part) (k : Kind) (t : Text) : Option Str → Part
  | none => x
  | some s => x.put k t s

section
variable (item : Kind → Value → Except Str Part) (k : Kind) (j : Value) (l : List Step) (x : Part)

theorem steps_nil : (stepsOf item k j [] x).toOption = some x := rfl

theorem steps_u64 (key : Str) (d : Nat) : (stepsOf item k j (u64 key d :: l) x).toOption =
    (readU64 j key d).bind fun n => (stepsOf item k j l (x.add [(n : Int)])).toOption := by
  simp only [stepsOf, u64, stepOf]
  cases readU64 j key d <;> rfl

theorem steps_u32 (key : Str) (d : Nat) : (stepsOf item k j (u32 key d :: l) x).toOption =
    (readU32 j key d).bind fun n => (stepsOf item k j l (x.add [(n : Int)])).toOption := by
  simp only [stepsOf, u32, stepOf]
  cases readU32 j key d <;> rfl

theorem steps_u16 (key : Str) (d : Nat) : (stepsOf item k j (u16 key d :: l) x).toOption =
    (readU16 j key d).bind fun n => (stepsOf item k j l (x.add [(n : Int)])).toOption := by
  simp only [stepsOf, u16, stepOf]
  cases readU16 j key d <;> rfl

theorem steps_flag (key : Str) (d : Bool) : (stepsOf item k j (flag key d :: l) x).toOption =
    (readBool j key d).bind fun b => (stepsOf item k j l (x.add [bit b])).toOption := by
  simp only [stepsOf, flag, stepOf]
  cases readBool j key d <;> rfl

theorem steps_taints : (stepsOf item k j (taintFlags :: l) x).toOption =
    (Koops.flagsFromJson j).bind fun t => (stepsOf item k j l (x.add (taintData t))).toOption := by
  simp only [stepsOf, taintFlags, stepOf]
  cases Koops.flagsFromJson j with
  | some t => rfl
  | none =>
    dsimp only
    cases Json.get j c!"taint_flags" with
    | none => rfl
    | some v => cases v <;> rfl

theorem steps_role : (stepsOf item k j (role :: l) x).toOption =
    (Rpm.readRole j).bind fun r => (stepsOf item k j l (x.add [match r with
      | .unknown => 0
      | .affected => 1])).toOption := by
  simp only [stepsOf, role, stepOf]
  cases Rpm.readRole j with
  | some t => cases t <;> rfl
  | none =>
    dsimp only
    cases Json.get j c!"package_role" with
    | none => rfl
    | some v => cases v <;> rfl

theorem steps_text (key : Str) (t : Text) : (stepsOf item k j (.text key t :: l) x).toOption =
    (readStr j key none).bind fun o => (stepsOf item k j l (x.opt k t o)).toOption := by
  simp only [stepsOf, stepOf, readStr]
  cases Json.get j key with
  | none => rfl
  | some v => cases v <;> rfl

theorem steps_either (key special : Str) (t : Text) : (stepsOf item k j (.either key special t :: l) x).toOption =
    (readSpecial j key special).bind fun o => (stepsOf item k j l ((x.add [bit o.1]).opt k t o.2)).toOption := by
  simp only [stepsOf, stepOf, readSpecial]
  cases Json.get j key with
  | none =>
    dsimp only
    cases Json.get j special with
    | none => rfl
    | some v => cases v <;> rfl
  | some v => cases v <;> rfl

theorem platform_part (v : Value) (key missing unknown : Str) (of : Str → Nat) :
    (partOf v key missing unknown of).toOption = Js.readPart v key of := by
  unfold partOf Js.readPart readStr
  cases Json.get v key with
  | none => rfl
  | some u =>
    cases u with
    | str s =>
      dsimp only [Option.bind]
      split
      · rfl
      · split <;> rfl
    | _ => rfl

theorem steps_platform : (stepsOf item k j (.platform :: l) x).toOption =
    (Js.readPlatform j).bind fun n => (stepsOf item k j l (x.add [(n : Int)])).toOption := by
  simp only [stepsOf, stepOf, Js.readPlatform]
  cases Json.get j c!"platform" with
  | none => rfl
  | some v =>
    dsimp only
    have : (platformOf v).toOption = Js.platformFromJson v := by
      unfold platformOf Js.platformFromJson
      rw [← platform_part v c!"engine" c!"No 'engine' member" c!"Unknown JavaScript engine '" Js.engineOf,
        ← platform_part v c!"runtime" c!"No 'runtime' member" c!"Unknown JavaScript runtime '" Js.runtimeOf]
      cases partOf v c!"engine" c!"No 'engine' member" c!"Unknown JavaScript engine '" Js.engineOf with
      | error e => rfl
      | ok a => cases partOf v c!"runtime" c!"No 'runtime' member" c!"Unknown JavaScript runtime '" Js.runtimeOf <;> rfl
    rw [← this]
    cases platformOf v <;> rfl

theorem append_assoc (a b c : Chain) : (a.append b).append c = a.append (b.append c) := by
  induction a with
  | nil => rfl
  | cons k d ts w a b c e next _ _ _ _ ih => simp only [Chain.append, ih]

theorem append_nil (a : Chain) : a.append .nil = a := by
  induction a with
  | nil => rfl
  | cons k d ts w a b c e next _ _ _ _ ih => simp only [Chain.append, ih]

/-- The position of the crash thread. -/
def shift (n : Nat) (old : Option Nat) : Option Nat → Option Nat
  | none => old
  | some i => some (n + i)

theorem itemsOf_list {α : Type} {item : Value → Except Str Chain} {marked : Bool} {g : Value → Option (α × Bool)} {ch : α → Chain}
    (hone : ∀ a, (ch a).length = 1)
    (hg : ∀ v, ((item v).toOption.bind fun c => (markOf marked v).map fun b => (c, b)) = (g v).map fun p => (ch p.1, p.2)) :
    ∀ (l : List Value) (x : Part), (itemsOf item marked l x).toOption = (readAll g l).map fun ps =>
      { x with a := x.a.append (chainsOf (ps.map fun p => ch p.1)), crash := shift x.a.length x.crash (Core.lastMarked (ps.map Prod.snd)) }
  | [], x => by simp [itemsOf, readAll, Except.toOption, chainsOf, append_nil, Core.lastMarked, shift]
  | v :: l, x => by
    have h := hg v
    rw [itemsOf, readAll]
    cases hi : item v with
    | error e =>
      rw [hi] at h
      cases hgv : g v with
      | none => rfl
      | some p => rw [hgv] at h; cases h
    | ok c =>
      rw [hi] at h
      dsimp only
      cases hm : markOf marked v with
      | none =>
        rw [hm] at h
        cases hgv : g v with
        | none => rfl
        | some p => rw [hgv] at h; cases h
      | some b =>
        rw [hm] at h
        cases hgv : g v with
        | none => rw [hgv] at h; cases h
        | some p =>
          rw [hgv] at h
          obtain ⟨a, b'⟩ := p
          have h' : some (c, b) = some (ch a, b') := h
          cases h'
          dsimp only
          rw [itemsOf_list hone hg l]
          show _ = ((readAll g l).map fun as => (a, b) :: as).map _
          rw [Option.map_map]
          congr 1
          funext ps
          simp only [Function.comp, List.map_cons, chainsOf, Core.lastMarked, append_assoc, length_append, hone]
          congr 1
          cases Core.lastMarked (ps.map Prod.snd) with
          | some i => simp only [shift]; congr 1; omega
          | none => cases b <;> rfl

theorem readAll_map {α β : Type} (g : Value → Option α) (f : α → β) : ∀ l, readAll (fun v => (g v).map f) l = (readAll g l).map (List.map f)
  | [] => rfl
  | v :: l => by
    rw [readAll, readAll, readAll_map g f l]
    cases g v with
    | none => rfl
    | some a => cases readAll g l <;> rfl

theorem lastMarked_false {α : Type} : ∀ (l : List α), Core.lastMarked (l.map fun _ => false) = none
  | [] => rfl
  | _ :: l => by rw [List.map_cons, Core.lastMarked, lastMarked_false l]; rfl

theorem steps_list {α : Type} {g : Value → Option α} {part : α → Part} {kind : Kind} (key : Str)
    (hg : ∀ v, (item kind v).toOption = (g v).map part) (hx : x.a = .nil) (hc : x.crash = none) :
    (stepsOf item k j (.list key kind false :: l) x).toOption =
    (readArray j key g).bind fun as => (stepsOf item k j l { x with a := chainsOf (as.map fun a => (part a).chain kind 0) }).toOption := by
  simp only [stepsOf, stepOf, readArray]
  cases Json.get j key with
  | none =>
    dsimp only [Option.bind]
    congr 2
    cases x
    simp_all [chainsOf]
  | some v =>
    cases v with
    | arr vs =>
      dsimp only
      have h := itemsOf_list (item := fun v => (item kind v).map fun y => y.chain kind 0) (marked := false)
        (g := fun v => (g v).map fun a => (a, false)) (ch := fun a => (part a).chain kind 0) (fun _ => rfl)
        (fun v => by
          have := hg v
          simp only [markOf, if_true]
          cases hi : item kind v with
          | error e =>
            rw [hi] at this
            cases hgv : g v with
            | none => rfl
            | some p => rw [hgv] at this; cases this
          | ok c =>
            rw [hi] at this
            cases hgv : g v with
            | none => rw [hgv] at this; cases this
            | some p =>
              rw [hgv] at this
              cases this
              rfl) vs x
      rw [readAll_map] at h
      cases hr : readAll g vs with
      | none =>
        rw [hr] at h
        cases hi : itemsOf (fun v => (item kind v).map fun y => y.chain kind 0) false vs x with
        | error e => rfl
        | ok y => rw [hi] at h; cases h
      | some as =>
        rw [hr] at h
        cases hi : itemsOf (fun v => (item kind v).map fun y => y.chain kind 0) false vs x with
        | error e => rw [hi] at h; cases h
        | ok y =>
          rw [hi] at h
          have h' : y = _ := Option.some.inj h
          dsimp only [Option.bind]
          congr 2
          rw [h', hx, hc]
          simp only [List.map_map, Function.comp_def, Chain.append, lastMarked_false, shift]
    | _ => rfl
end

theorem bind_map {α β γ : Type} (o : Option α) (f : α → Option β) (g : β → γ) : (o.bind f).map g = o.bind fun a => (f a).map g := by
  cases o <;> rfl

theorem bind_congr' {α β : Type} {o : Option α} {f g : α → Option β} (h : ∀ a, f a = g a) : o.bind f = o.bind g := by
  cases o with
  | none => rfl
  | some a => exact h a

theorem parts_object {d : Nat} {k : Kind} {j : Value} : (partOfJson (d + 1) k j).toOption = if isObject j = false then none else
    (stepsOf (partOfJson d) k j (steps k) { texts := List.replicate (texts k).length none }).toOption := by
  rw [partOfJson]
  cases isObject j <;> rfl

theorem map_if {α β : Type} (c : Prop) [Decidable c] (o : Option α) (f : α → β) :
    (if c then none else o).map f = if c then none else o.map f := by
  split <;> rfl

theorem coreFrame_part (d : Nat) (j : Value) : (partOfJson (d + 1) .coreFrame j).toOption = (Core.frameFromJson j).map coreFramePart := by
  rw [parts_object, Core.frameFromJson, map_if]
  split
  · rfl
  · simp only [steps, steps_u64, steps_text, steps_flag, steps_nil, bind_map]
    refine bind_congr' fun a1 => bind_congr' fun a2 => bind_congr' fun a3 => bind_congr' fun a4 => bind_congr' fun a5 => bind_congr' fun a6 =>
      bind_congr' fun a7 => ?_
    cases a2 <;> cases a4 <;> cases a5 <;> cases a6 <;> rfl

theorem koopsFrame_part (d : Nat) (j : Value) : (partOfJson (d + 1) .koopsFrame j).toOption = (Koops.frameFromJson j).map koopsFramePart := by
  rw [parts_object, Koops.frameFromJson, map_if]
  cases isObject j with
  | false => rfl
  | true =>
    rw [if_neg (by simp), if_neg (by simp)]
    simp (maxSteps := 1000000) only [steps, steps_u64, steps_text, steps_flag, steps_nil, bind_map]
    refine bind_congr' fun a1 => bind_congr' fun a2 => bind_congr' fun a3 => bind_congr' fun a4 => bind_congr' fun a5 => bind_congr' fun a6 =>
      bind_congr' fun a7 => bind_congr' fun a8 => bind_congr' fun a9 => bind_congr' fun a10 => bind_congr' fun a11 => bind_congr' fun a12 => ?_
    cases a3 <;> cases a6 <;> cases a8 <;> cases a11 <;> cases a12 <;> rfl

theorem javaFrame_part (d : Nat) (j : Value) : (partOfJson (d + 1) .javaFrame j).toOption = (Java.frameFromJson j).map javaFramePart := by
  rw [parts_object, Java.frameFromJson, map_if]
  split
  · rfl
  · simp only [steps, steps_u32, steps_text, steps_flag, steps_nil, bind_map]
    refine bind_congr' fun a1 => bind_congr' fun a2 => bind_congr' fun a3 => bind_congr' fun a4 => bind_congr' fun a5 => bind_congr' fun a6 =>
      bind_congr' fun a7 => ?_
    cases a1 <;> cases a2 <;> cases a4 <;> cases a7 <;> rfl

theorem jsFrame_part (d : Nat) (j : Value) : (partOfJson (d + 1) .jsFrame j).toOption = (Js.frameFromJson j).map jsFramePart := by
  rw [parts_object, Js.frameFromJson, map_if]
  split
  · rfl
  · simp only [steps, steps_u32, steps_text, steps_nil, bind_map]
    refine bind_congr' fun a1 => bind_congr' fun a2 => bind_congr' fun a3 => bind_congr' fun a4 => ?_
    cases a1 <;> cases a2 <;> rfl

theorem pythonFrame_part (d : Nat) (j : Value) :
    (partOfJson (d + 1) .pythonFrame j).toOption = (Python.frameFromJson j).map pythonFramePart := by
  rw [parts_object, Python.frameFromJson, map_if]
  split
  · rfl
  · simp only [steps, steps_u32, steps_text, steps_either, steps_nil, bind_map]
    refine bind_congr' fun ⟨a1, a1'⟩ => bind_congr' fun ⟨a2, a2'⟩ => bind_congr' fun a3 => bind_congr' fun a4 => ?_
    cases a1' <;> cases a2' <;> cases a3 <;> rfl

theorem rubyFrame_part (d : Nat) (j : Value) : (partOfJson (d + 1) .rubyFrame j).toOption = (Ruby.frameFromJson j).map rubyFramePart := by
  rw [parts_object, Ruby.frameFromJson, map_if]
  split
  · rfl
  · simp only [steps, steps_u32, steps_text, steps_either, steps_nil, bind_map]
    refine bind_congr' fun a1 => bind_congr' fun ⟨a2, a2'⟩ => bind_congr' fun a3 => bind_congr' fun a4 => bind_congr' fun a5 => ?_
    cases a1 <;> cases a2' <;> rfl

theorem package_part (d : Nat) (j : Value) : (partOfJson (d + 1) .package j).toOption = (Rpm.packageFromJson j).map packagePart := by
  rw [parts_object, Rpm.packageFromJson, map_if]
  split
  · rfl
  · simp only [steps, steps_u32, steps_u64, steps_text, steps_role, steps_nil, bind_map]
    refine bind_congr' fun a1 => bind_congr' fun a2 => bind_congr' fun a3 => bind_congr' fun a4 => bind_congr' fun a5 => bind_congr' fun a6 =>
      bind_congr' fun a7 => ?_
    cases a1 <;> cases a2 <;> cases a3 <;> cases a4 <;> rfl

/-! ## Threads and stack traces -/

theorem coreThread_part (d : Nat) (j : Value) : (partOfJson (d + 2) .coreThread j).toOption = (Core.threadFromJson j).map coreThreadPart := by
  rw [parts_object, Core.threadFromJson, map_if]
  split
  · rfl
  · simp only [steps]
    rw [steps_list _ _ _ _ _ _ (fun v => coreFrame_part d v) rfl rfl]
    simp only [steps_nil, bind_map]
    exact bind_congr' fun _ => rfl

theorem javaThread_part (d : Nat) (j : Value) : (partOfJson (d + 2) .javaThread j).toOption = (Java.threadFromJson j).map javaThreadPart := by
  rw [parts_object, Java.threadFromJson, map_if]
  split
  · rfl
  · simp only [steps, steps_text, bind_map]
    refine bind_congr' fun a => ?_
    rw [steps_list _ _ _ _ _ _ (fun v => javaFrame_part d v) (by cases a <;> rfl) (by cases a <;> rfl)]
    simp only [steps_nil]
    exact bind_congr' fun _ => by cases a <;> rfl

theorem javaTrace_part (d : Nat) (j : Value) : (partOfJson (d + 3) .javaTrace j).toOption = (Java.fromJson j).map javaTracePart := by
  rw [parts_object, Java.fromJson, map_if]
  split
  · rfl
  · simp only [steps]
    rw [steps_list _ _ _ _ _ _ (fun v => javaThread_part d v) rfl rfl]
    simp only [steps_nil, bind_map]
    exact bind_congr' fun _ => rfl

theorem jsTrace_part (d : Nat) (j : Value) : (partOfJson (d + 2) .jsTrace j).toOption = (Js.fromJson j).map jsTracePart := by
  rw [parts_object, Js.fromJson, map_if]
  split
  · rfl
  · simp only [steps, steps_text, bind_map]
    refine bind_congr' fun a => ?_
    rw [steps_list _ _ _ _ _ _ (fun v => jsFrame_part d v) (by cases a <;> rfl) (by cases a <;> rfl)]
    simp only [steps_platform, steps_nil]
    exact bind_congr' fun _ => bind_congr' fun _ => by cases a <;> rfl

theorem pythonTrace_part (d : Nat) (j : Value) : (partOfJson (d + 2) .pythonTrace j).toOption = (Python.fromJson j).map pythonTracePart := by
  rw [parts_object, Python.fromJson, map_if]
  split
  · rfl
  · simp only [steps, steps_text, bind_map]
    refine bind_congr' fun a => ?_
    rw [steps_list _ _ _ _ _ _ (fun v => pythonFrame_part d v) (by cases a <;> rfl) (by cases a <;> rfl)]
    simp only [steps_nil]
    exact bind_congr' fun _ => by cases a <;> rfl

theorem rubyTrace_part (d : Nat) (j : Value) : (partOfJson (d + 2) .rubyTrace j).toOption = (Ruby.fromJson j).map rubyTracePart := by
  rw [parts_object, Ruby.fromJson, map_if]
  split
  · rfl
  · simp only [steps, steps_text, bind_map]
    refine bind_congr' fun a => ?_
    rw [steps_list _ _ _ _ _ _ (fun v => rubyFrame_part d v) (by cases a <;> rfl) (by cases a <;> rfl)]
    simp only [steps_nil]
    exact bind_congr' fun _ => by cases a <;> rfl

theorem steps_marked (item : Kind → Value → Except Str Part) (k : Kind) (j : Value) (l : List Step) (x : Part) (key : Str)
    (hg : ∀ v, (item .coreThread v).toOption = (Core.threadFromJson v).map coreThreadPart) (hx : x.a = .nil) (hc : x.crash = none) :
    (stepsOf item k j (.list key .coreThread true :: l) x).toOption =
    (readArray j key Core.markedFromJson).bind fun ps => (stepsOf item k j l
      { x with a := chainsOf (ps.map fun p => (coreThreadPart p.1).chain .coreThread 0), crash := Core.lastMarked (ps.map Prod.snd) }).toOption := by
  simp only [stepsOf, stepOf, readArray]
  cases Json.get j key with
  | none =>
    dsimp only [Option.bind]
    congr 2
    cases x
    simp_all [chainsOf, Core.lastMarked]
  | some v =>
    cases v with
    | arr vs =>
      dsimp only
      have h := itemsOf_list (item := fun v => (item .coreThread v).map fun y => y.chain .coreThread 0) (marked := true)
        (g := Core.markedFromJson) (ch := fun a => (coreThreadPart a).chain .coreThread 0) (fun _ => rfl)
        (fun v => by
          have := hg v
          have hm : markOf true v = Core.readMark v := rfl
          rw [hm]
          unfold Core.markedFromJson
          cases hi : item .coreThread v with
          | error e =>
            rw [hi] at this
            cases hgv : Core.threadFromJson v with
            | none => rfl
            | some p => rw [hgv] at this; cases this
          | ok c =>
            rw [hi] at this
            cases hgv : Core.threadFromJson v with
            | none => rw [hgv] at this; cases this
            | some p =>
              rw [hgv] at this
              cases this
              cases Core.readMark v <;> rfl) vs x
      cases hr : readAll Core.markedFromJson vs with
      | none =>
        rw [hr] at h
        cases hi : itemsOf (fun v => (item .coreThread v).map fun y => y.chain .coreThread 0) true vs x with
        | error e => rfl
        | ok y => rw [hi] at h; cases h
      | some as =>
        rw [hr] at h
        cases hi : itemsOf (fun v => (item .coreThread v).map fun y => y.chain .coreThread 0) true vs x with
        | error e => rw [hi] at h; cases h
        | ok y =>
          rw [hi] at h
          have h' : y = _ := Option.some.inj h
          dsimp only [Option.bind]
          congr 2
          rw [h', hx, hc]
          simp only [Chain.append, Chain.length]
          cases Core.lastMarked (as.map Prod.snd) with
          | none => rfl
          | some i => simp [shift]
    | _ => rfl

theorem coreTrace_part (d : Nat) (j : Value) : (partOfJson (d + 3) .coreTrace j).toOption = (Core.fromJson j).map coreTracePart := by
  rw [parts_object, Core.fromJson, map_if]
  split
  · rfl
  · simp only [steps, steps_u16, steps_text, steps_flag, bind_map]
    refine bind_congr' fun a1 => bind_congr' fun a2 => bind_congr' fun a3 => ?_
    rw [steps_marked _ _ _ _ _ _ (fun v => coreThread_part d v) (by cases a2 <;> rfl) (by cases a2 <;> rfl)]
    simp only [steps_nil]
    refine bind_congr' fun ps => ?_
    simp only [Option.map_some, coreTracePart, List.map_map, Function.comp_def]
    cases a2 <;> rfl

theorem koopsTrace_part (d : Nat) (j : Value) {v : Option KoopsTrace} (h : Koops.fromJson j = .ok v) :
    (partOfJson (d + 2) .koopsTrace j).toOption = v.map koopsTracePart := by
  rw [parts_object]
  unfold Koops.fromJson Koops.headFromJson at h
  cases ho : isObject j with
  | false =>
    rw [ho, if_pos rfl] at h
    cases h
    rfl
  | true =>
    rw [ho, if_neg (by simp)] at h
    rw [if_neg (by simp)]
    simp only [steps, steps_text, steps_taints]
    cases h1 : readStr j c!"version" none with
    | none => rw [h1] at h; cases h; rfl
    | some a1 =>
      cases h2 : readStr j c!"raw_oops" none with
      | none => rw [h1, h2] at h; cases h; rfl
      | some a2 =>
        cases h3 : Koops.flagsFromJson j with
        | none => rw [h1, h2, h3] at h; cases h; rfl
        | some a3 =>
          rw [h1, h2, h3] at h
          dsimp only [Option.bind] at h ⊢
          rw [stepsOf, stepOf]
          have frames : ∀ x : Part, x.a = .nil → x.crash = none →
              (stepsOf (partOfJson (d + 1)) .koopsTrace j [.list c!"frames" .koopsFrame false] x).toOption =
              (readArray j c!"frames" Koops.frameFromJson).bind fun as =>
                some { x with a := chainsOf (as.map fun a => (koopsFramePart a).chain .koopsFrame 0) } := by
            intro x hx hc
            rw [steps_list _ _ _ _ _ _ (fun v => koopsFrame_part d v) hx hc]
            rfl
          cases h4 : Koops.modulesFromJson j with
          | abort => rw [h4] at h; cases h
          | ub => rw [h4] at h; cases h
          | ok o =>
            rw [h4] at h
            cases o with
            | none => cases h; rfl
            | some o =>
              dsimp only at h
              have h' := Out.ok.inj h
              subst h'
              cases o with
              | none =>
                dsimp only
                rw [frames _ (by cases a1 <;> cases a2 <;> rfl) (by cases a1 <;> cases a2 <;> rfl)]
                cases readArray j c!"frames" Koops.frameFromJson with
                | none => rfl
                | some as => cases a1 <;> cases a2 <;> rfl
              | some ms =>
                dsimp only
                rw [frames _ (by cases a1 <;> cases a2 <;> rfl) (by cases a1 <;> cases a2 <;> rfl)]
                cases readArray j c!"frames" Koops.frameFromJson with
                | none => rfl
                | some as => cases a1 <;> cases a2 <;> rfl

end Satyr.Heap
