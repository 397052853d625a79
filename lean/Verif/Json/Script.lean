import Verif.Json.ScriptModel
import Verif.Json.Lemmas
/-!
# C42, C43, C44, C45: the JSON form of Python, Ruby, JavaScript and Java stack traces
-/
namespace Satyr.Json
open Satyr.CStr Satyr.Frames

/-! ## Common lemmas -/

/-- The member for a number that is left out if it is 0. -/
def nonzeroVal (key : Str) (n : Nat) : List (Str × Value) := if n ≠ 0 then [(key, .num n)] else []

theorem Body.nonzeroMember {name key : Str} (n : Nat) (hl : lexLit n name = some [.comma, .str key, .colon])
    (hh : name.head? = some ',') (k : Nat) : Body (nonzeroVal key k) (nonzeroMember name k) :=
  Body.ite (fun _ => Body.numMember n hl hh _) fun _ => Body.nil

theorem get_nonzeroVal (k : Str) (n : Nat) (key : Str) :
    get (.obj (nonzeroVal k n)) key = if k = key then (if n ≠ 0 then some (.num n) else none) else none := by
  by_cases h : n = 0 <;> simp [nonzeroVal, h, get_obj_nil, get_obj_one]

theorem readU32_nonzero {j : Value} {key : Str} {n : Nat} (h : get j key = if n ≠ 0 then some (.num n) else none) :
    readU32 j key 0 = some (min n (2 ^ 31 - 1)) := by
  by_cases hn : n = 0
  · rw [if_neg (by simp [hn])] at h
    rw [readU32, h, hn]
    rfl
  · rw [if_pos hn] at h
    exact readU32_of 0 h

theorem Body.special {plain special pk sk : Str} (n : Nat) (h1 : lexLit n plain = some [.comma, .str pk, .colon])
    (h2 : lexLit n special = some [.comma, .str sk, .colon]) (h3 : plain.head? = some ',') (h4 : special.head? = some ',')
    (b : Bool) (o : Option Str) :
    Body (strVal (if b then sk else pk) o) (Json.strMember (if b then special else plain) o) := by
  cases b with
  | false => exact Body.strMember n h1 h3 o
  | true => exact Body.strMember n h2 h4 o

theorem readSpecial_of {j : Value} {plain special : Str} {b : Bool} {o : Option Str}
    (h1 : get j plain = if b then none else o.map Value.str) (h2 : get j special = if b then o.map Value.str else none) :
    readSpecial j plain special = some (b && o.isSome, o) := by
  rw [readSpecial, h1, h2]
  cases b <;> cases o <;> rfl

/-- The member for a list that is left out if it is empty. -/
def arrVal {α : Type} (key : Str) (v : α → Value) (l : List α) : List (Str × Value) :=
  if l ≠ [] then [(key, .arr (l.map v))] else []

theorem Body.framesMember {α : Type} {name key : Str} (n : Nat) (hl : lexLit n name = some [.comma, .str key, .colon])
    (hh : name.head? = some ',') (v : α → Value) (f : α → Str) (l : List α) (h : ∀ a ∈ l, Rend (toks (v a)) (f a)) :
    Body (arrVal key v l) (framesMember name (l.map f)) := by
  unfold arrVal Json.framesMember
  by_cases hne : l = []
  · rw [if_neg (by simp [hne]), if_neg (by simp [hne])]
    exact Body.nil
  · rw [if_pos hne, if_pos (by simpa using hne)]
    exact Body.one n hl hh (rend_array v f l hne h)

theorem get_arrVal {α : Type} (k : Str) (v : α → Value) (l : List α) (key : Str) :
    get (.obj (arrVal k v l)) key = if k = key then (if l ≠ [] then some (.arr (l.map v)) else none) else none := by
  by_cases h : l = [] <;> simp [arrVal, h, get_obj_nil, get_obj_one]

theorem readArray_arrVal {α : Type} {j : Value} {key : Str} {l : List α} {v : α → Value} {g : Value → Option α} {r : α → α}
    (h : get j key = if l ≠ [] then some (.arr (l.map v)) else none) (hr : ∀ a ∈ l, g (v a) = some (r a)) :
    readArray j key g = some (l.map r) := by
  by_cases hn : l = []
  · rw [if_neg (by simp [hn])] at h
    rw [readArray, h, hn]
    rfl
  · rw [if_pos hn] at h
    exact readArray_of h hr

theorem Body.finishSafely {l : List (Str × Value)} {s : Str} (h : Body l s) :
    Rend (toks (.obj l)) (finishSafely s) := by
  unfold Json.finishSafely
  by_cases hb : s = []
  · rw [if_neg (by simp [hb]), h.2.1.2 hb]
    exact rend_lit 100 (by decide)
  · rw [if_pos hb]
    have := h.object (fun e => hb (h.2.1.1 e)) [] rfl
    simpa using this

/-- Looks up a member. -/
macro "member" d:ident : tactic =>
  `(tactic| set_option linter.unusedSimpArgs false in
    simp [$d:ident, get_obj_append, get_obj_cons, get_obj_one, get_strVal, get_nonzeroVal, get_arrVal, get_ite, get_obj_nil])

/-- What a 32-bit number becomes: it saturates at 2^31 - 1. -/
def keep32 (n : Nat) : Nat := min n (2 ^ 31 - 1)

theorem keep32_of {n : Nat} (h : n < 2 ^ 31) : keep32 n = n := by unfold keep32; omega

theorem rend_bool (b : Bool) : Rend (toks (.bool b)) ((if b then c!"true" else c!"false") ++ ['\n']) := by
  cases b <;> exact rend_lit 100 (by decide)

theorem map_keep {α : Type} {k : α → α} {l : List α} (h : ∀ a ∈ l, k a = a) : l.map k = l := by
  conv_rhs => rw [← List.map_id l]
  exact List.map_congr_left h

namespace Python

/-- What a frame becomes: lines saturate, and the mark of a special file or function is lost if there is no name. -/
def keepFrame (f : PythonFrame) : PythonFrame :=
  { f with fileLine := keep32 f.fileLine, specialFile := f.specialFile && f.fileName.isSome,
           specialFunction := f.specialFunction && f.functionName.isSome }

/-- A frame of which something is written. -/
def Some (f : PythonFrame) : Prop := f.fileName ≠ none ∨ f.fileLine ≠ 0 ∨ f.functionName ≠ none ∨ f.lineContents ≠ none

def frameVals (f : PythonFrame) : List (Str × Value) :=
  strVal (if f.specialFile then c!"special_file" else c!"file_name") f.fileName ++
  (nonzeroVal c!"file_line" f.fileLine ++
  (strVal (if f.specialFunction then c!"special_function" else c!"function_name") f.functionName ++
  strVal c!"line_contents" f.lineContents))

theorem frame_rend (f : PythonFrame) (h : Some f) : Rend (toks (.obj (frameVals f))) (frameToJson f) := by
  refine Body.finish ?_ ?_
  · refine Body.append (Body.special 100 (by decide) (by decide) rfl rfl _ _) ?_
    refine Body.append (Body.nonzeroMember 100 (by decide) rfl _) ?_
    refine Body.append (Body.special 100 (by decide) (by decide) rfl rfl _ _) ?_
    exact Body.strMember 100 (by decide) rfl _
  · intro e
    simp only [frameVals, List.append_eq_nil_iff] at e
    obtain ⟨e1, e2, e3, e4⟩ := e
    rcases h with h | h | h | h
    · cases hx : f.fileName <;> simp_all [strVal]
    · simp_all [nonzeroVal]
    · cases hx : f.functionName <;> simp_all [strVal]
    · cases hx : f.lineContents <;> simp_all [strVal]

theorem frame_read (f : PythonFrame) : frameFromJson (.obj (frameVals f)) = some (keepFrame f) := by
  obtain ⟨sf, fn, fl, sfn, fun_, lc⟩ := f
  generalize hv : frameVals _ = vals
  have g1 : readSpecial (.obj vals) c!"file_name" c!"special_file" = some (sf && fn.isSome, fn) := by
    subst hv; apply readSpecial_of <;> cases sf <;> cases sfn <;> member frameVals
  have g2 : readSpecial (.obj vals) c!"function_name" c!"special_function" = some (sfn && fun_.isSome, fun_) := by
    subst hv; apply readSpecial_of <;> cases sf <;> cases sfn <;> member frameVals
  have g3 : readStr (.obj vals) c!"line_contents" none = some lc := by
    subst hv; apply readStr_of; cases sf <;> cases sfn <;> member frameVals
  have g4 : readU32 (.obj vals) c!"file_line" 0 = some (keep32 fl) := by
    subst hv; apply readU32_nonzero; cases sf <;> cases sfn <;> member frameVals
  rw [frameFromJson, if_neg (by simp [isObject]), g1, g2, g3, g4]
  rfl

/-- What a stack trace becomes. -/
def keep (t : PythonTrace) : PythonTrace := { t with frames := t.frames.map keepFrame }

def traceVals (t : PythonTrace) : List (Str × Value) :=
  strVal c!"exception_name" t.exceptionName ++ arrVal c!"stacktrace" (fun f => .obj (frameVals f)) t.frames

theorem trace_rend (t : PythonTrace) (h : ∀ f ∈ t.frames, Some f) : Rend (toks (.obj (traceVals t))) (toJson t) :=
  Body.finishSafely (Body.append (Body.strMember 100 (by decide) rfl _)
    (Body.framesMember 100 (by decide) rfl _ _ _ fun f hf => frame_rend f (h f hf)))

theorem trace_read (t : PythonTrace) : fromJson (.obj (traceVals t)) = some (keep t) := by
  have g1 : readStr (.obj (traceVals t)) c!"exception_name" none = some t.exceptionName := by
    apply readStr_of; member traceVals
  have g2 : readArray (.obj (traceVals t)) c!"stacktrace" frameFromJson = some (t.frames.map keepFrame) := by
    refine readArray_arrVal (v := fun f => .obj (frameVals f)) ?_ fun f _ => frame_read f
    member traceVals
  rw [fromJson, if_neg (by simp [isObject]), g1, g2]
  rfl

/-- C42: if something is known about every frame, what is written for a Python stack trace is a JSON document from which the
same stack trace is read, except that lines saturate at 2^31 - 1 and that the mark of a special file or function without a name
is lost. -/
theorem C42_read_back (t : PythonTrace) (h : ∀ f ∈ t.frames, Some f) :
    (parse (toJson t)).bind fromJson = some (keep t) := by
  rw [parse_toks (trace_rend t h)]
  exact trace_read t

/-- The frames that survive. -/
def FrameWF (f : PythonFrame) : Prop :=
  Some f ∧ f.fileLine < 2 ^ 31 ∧ (f.specialFile = true → f.fileName ≠ none) ∧
  (f.specialFunction = true → f.functionName ≠ none)

/-- C42, for stack traces whose frames all have some attribute and a line below 2^31 (missing: stack traces with a frame
without any attribute, for which the text is not JSON, see `C42_not_empty_frame`, and larger lines, see `C42_not_high_line`). -/
theorem C42_round_trip_partial (t : PythonTrace) (h : ∀ f ∈ t.frames, FrameWF f) :
    (parse (toJson t)).bind fromJson = some t := by
  rw [C42_read_back t fun f hf => (h f hf).1]
  refine congrArg _ ?_
  unfold keep
  rw [map_keep]
  rintro ⟨sf, fn, fl, sfn, fun_, lc⟩ hf
  obtain ⟨-, h1, h2, h3⟩ := h _ hf
  simp only [keepFrame, keep32_of h1, PythonFrame.mk.injEq, true_and, and_true]
  refine ⟨?_, ?_⟩
  · cases sf <;> cases fn <;> simp_all
  · cases sfn <;> cases fun_ <;> simp_all

/-- C42 is violated: for a frame without attributes the text is not JSON. -/
theorem C42_not_empty_frame : parse (toJson { exceptionName := c!"E", frames := [{}] }) = none := by decide +kernel

/-- C42 is violated: line numbers above 2^31 - 1 change. -/
theorem C42_not_high_line : ∃ t : PythonTrace, (∀ f ∈ t.frames, Some f ∧ f.fileLine < 2 ^ 32) ∧
    (parse (toJson t)).bind fromJson ≠ some t := by
  refine ⟨{ frames := [{ fileLine := 2 ^ 31 }] }, by simp [Some], ?_⟩
  rw [C42_read_back _ (by simp [Some])]
  simp [keep, keepFrame, keep32]

example : FrameWF { fileName := c!"/usr/bin/yum", fileLine := 29, specialFunction := true, functionName := c!"module",
                    lineContents := c!"yummain.user_main(\"sys\")" } := by simp [FrameWF, Some]

end Python

namespace Ruby

/-- What a frame becomes: numbers saturate, and the mark of a special function is lost if there is no name. -/
def keepFrame (f : RubyFrame) : RubyFrame :=
  { f with fileLine := keep32 f.fileLine, blockLevel := keep32 f.blockLevel, rescueLevel := keep32 f.rescueLevel,
           specialFunction := f.specialFunction && f.functionName.isSome }

/-- A frame of which something is written. -/
def Some (f : RubyFrame) : Prop :=
  f.fileName ≠ none ∨ f.fileLine ≠ 0 ∨ f.functionName ≠ none ∨ f.blockLevel ≠ 0 ∨ f.rescueLevel ≠ 0

def frameVals (f : RubyFrame) : List (Str × Value) :=
  strVal c!"file_name" f.fileName ++
  (nonzeroVal c!"file_line" f.fileLine ++
  (strVal (if f.specialFunction then c!"special_function" else c!"function_name") f.functionName ++
  (nonzeroVal c!"block_level" f.blockLevel ++
  nonzeroVal c!"rescue_level" f.rescueLevel)))

theorem frame_rend (f : RubyFrame) (h : Some f) : Rend (toks (.obj (frameVals f))) (frameToJson f) := by
  refine Body.finish ?_ ?_
  · refine Body.append (Body.strMember 100 (by decide) rfl _) ?_
    refine Body.append (Body.nonzeroMember 100 (by decide) rfl _) ?_
    refine Body.append (Body.special 100 (by decide) (by decide) rfl rfl _ _) ?_
    refine Body.append (Body.nonzeroMember 100 (by decide) rfl _) ?_
    exact Body.nonzeroMember 100 (by decide) rfl _
  · intro e
    simp only [frameVals, List.append_eq_nil_iff] at e
    obtain ⟨e1, e2, e3, e4, e5⟩ := e
    rcases h with h | h | h | h | h
    · cases hx : f.fileName <;> simp_all [strVal]
    · simp_all [nonzeroVal]
    · cases hx : f.functionName <;> simp_all [strVal]
    · simp_all [nonzeroVal]
    · simp_all [nonzeroVal]

theorem frame_read (f : RubyFrame) : frameFromJson (.obj (frameVals f)) = some (keepFrame f) := by
  obtain ⟨fn, fl, sfn, fun_, bl, rl⟩ := f
  generalize hv : frameVals _ = vals
  have g1 : readStr (.obj vals) c!"file_name" none = some fn := by
    subst hv; apply readStr_of; cases sfn <;> member frameVals
  have g2 : readSpecial (.obj vals) c!"function_name" c!"special_function" = some (sfn && fun_.isSome, fun_) := by
    subst hv; apply readSpecial_of <;> cases sfn <;> member frameVals
  have g3 : readU32 (.obj vals) c!"file_line" 0 = some (keep32 fl) := by
    subst hv; apply readU32_nonzero; cases sfn <;> member frameVals
  have g4 : readU32 (.obj vals) c!"block_level" 0 = some (keep32 bl) := by
    subst hv; apply readU32_nonzero; cases sfn <;> member frameVals
  have g5 : readU32 (.obj vals) c!"rescue_level" 0 = some (keep32 rl) := by
    subst hv; apply readU32_nonzero; cases sfn <;> member frameVals
  rw [frameFromJson, if_neg (by simp [isObject]), g1, g2, g3, g4, g5]
  rfl

/-- What a stack trace becomes. -/
def keep (t : RubyTrace) : RubyTrace := { t with frames := t.frames.map keepFrame }

def traceVals (t : RubyTrace) : List (Str × Value) :=
  strVal c!"exception_name" t.exceptionName ++ arrVal c!"stacktrace" (fun f => .obj (frameVals f)) t.frames

theorem trace_rend (t : RubyTrace) (h : ∀ f ∈ t.frames, Some f) : Rend (toks (.obj (traceVals t))) (toJson t) :=
  Body.finishSafely (Body.append (Body.strMember 100 (by decide) rfl _)
    (Body.framesMember 100 (by decide) rfl _ _ _ fun f hf => frame_rend f (h f hf)))

theorem trace_read (t : RubyTrace) : fromJson (.obj (traceVals t)) = some (keep t) := by
  have g1 : readStr (.obj (traceVals t)) c!"exception_name" none = some t.exceptionName := by
    apply readStr_of; member traceVals
  have g2 : readArray (.obj (traceVals t)) c!"stacktrace" frameFromJson = some (t.frames.map keepFrame) := by
    refine readArray_arrVal (v := fun f => .obj (frameVals f)) ?_ fun f _ => frame_read f
    member traceVals
  rw [fromJson, if_neg (by simp [isObject]), g1, g2]
  rfl

/-- C43: if something is known about every frame, what is written for a Ruby stack trace is a JSON document from which the
same stack trace is read, except that numbers saturate at 2^31 - 1 and that the mark of a special function without a name is
lost. -/
theorem C43_read_back (t : RubyTrace) (h : ∀ f ∈ t.frames, Some f) :
    (parse (toJson t)).bind fromJson = some (keep t) := by
  rw [parse_toks (trace_rend t h)]
  exact trace_read t

/-- The frames that survive. -/
def FrameWF (f : RubyFrame) : Prop :=
  Some f ∧ f.fileLine < 2 ^ 31 ∧ f.blockLevel < 2 ^ 31 ∧ f.rescueLevel < 2 ^ 31 ∧
  (f.specialFunction = true → f.functionName ≠ none)

/-- C43, for stack traces whose frames all have some attribute and numbers below 2^31 (missing: stack traces with a frame
without any attribute, for which the text is not JSON, see `C43_not_empty_frame`, and larger numbers, see
`C43_not_high_line`). -/
theorem C43_round_trip_partial (t : RubyTrace) (h : ∀ f ∈ t.frames, FrameWF f) :
    (parse (toJson t)).bind fromJson = some t := by
  rw [C43_read_back t fun f hf => (h f hf).1]
  refine congrArg _ ?_
  unfold keep
  rw [map_keep]
  rintro ⟨fn, fl, sfn, fun_, bl, rl⟩ hf
  obtain ⟨-, h1, h2, h3, h4⟩ := h _ hf
  simp only [keepFrame, keep32_of h1, keep32_of h2, keep32_of h3, RubyFrame.mk.injEq, true_and, and_true]
  cases sfn <;> cases fun_ <;> simp_all

/-- C43 is violated: for a frame without attributes the text is not JSON. -/
theorem C43_not_empty_frame : parse (toJson { exceptionName := c!"E", frames := [{}] }) = none := by decide +kernel

/-- C43 is violated: line numbers above 2^31 - 1 change. -/
theorem C43_not_high_line : ∃ t : RubyTrace, (∀ f ∈ t.frames, Some f ∧ f.fileLine < 2 ^ 32) ∧
    (parse (toJson t)).bind fromJson ≠ some t := by
  refine ⟨{ frames := [{ fileLine := 2 ^ 31 }] }, by simp [Some], ?_⟩
  rw [C43_read_back _ (by simp [Some])]
  simp [keep, keepFrame, keep32]

example : FrameWF { fileName := c!"/usr/share/ruby/vendor_ruby/will_crash.rb", fileLine := 13, blockLevel := 2,
                    rescueLevel := 1, specialFunction := true, functionName := c!"class:WillClass" } := by
  simp [FrameWF, Some]

end Ruby

namespace Js

/-- What a frame becomes: numbers saturate. -/
def keepFrame (f : JsFrame) : JsFrame := { f with fileLine := keep32 f.fileLine, lineColumn := keep32 f.lineColumn }

/-- A frame of which something is written. -/
def Some (f : JsFrame) : Prop := f.fileName ≠ none ∨ f.fileLine ≠ 0 ∨ f.lineColumn ≠ 0 ∨ f.functionName ≠ none

def frameVals (f : JsFrame) : List (Str × Value) :=
  strVal c!"file_name" f.fileName ++
  (nonzeroVal c!"file_line" f.fileLine ++
  (nonzeroVal c!"line_column" f.lineColumn ++
  strVal c!"function_name" f.functionName))

theorem frame_rend (f : JsFrame) (h : Some f) : Rend (toks (.obj (frameVals f))) (frameToJson f) := by
  refine Body.finish ?_ ?_
  · refine Body.append (Body.strMember 100 (by decide) rfl _) ?_
    refine Body.append (Body.nonzeroMember 100 (by decide) rfl _) ?_
    refine Body.append (Body.nonzeroMember 100 (by decide) rfl _) ?_
    exact Body.strMember 100 (by decide) rfl _
  · intro e
    simp only [frameVals, List.append_eq_nil_iff] at e
    obtain ⟨e1, e2, e3, e4⟩ := e
    rcases h with h | h | h | h
    · cases hx : f.fileName <;> simp_all [strVal]
    · simp_all [nonzeroVal]
    · simp_all [nonzeroVal]
    · cases hx : f.functionName <;> simp_all [strVal]

theorem frame_read (f : JsFrame) : frameFromJson (.obj (frameVals f)) = some (keepFrame f) := by
  have g1 : readStr (.obj (frameVals f)) c!"file_name" none = some f.fileName := by
    apply readStr_of; member frameVals
  have g2 : readStr (.obj (frameVals f)) c!"function_name" none = some f.functionName := by
    apply readStr_of; member frameVals
  have g3 : readU32 (.obj (frameVals f)) c!"file_line" 0 = some (keep32 f.fileLine) := by
    apply readU32_nonzero; member frameVals
  have g4 : readU32 (.obj (frameVals f)) c!"line_column" 0 = some (keep32 f.lineColumn) := by
    apply readU32_nonzero; member frameVals
  rw [frameFromJson, if_neg (by simp [isObject]), g1, g2, g3, g4]
  rfl

/-- What a platform, 16 * runtime + engine, becomes: engine and runtime change places, and unknown ones become 0. -/
def keepPlatform (p : Nat) : Nat := 16 * (if p % 16 = 1 then 1 else 0) + (if p / 16 = 1 then 1 else 0)

def platformVal (p : Nat) : Value :=
  .obj [(c!"engine", .str (if p % 16 = 1 then c!"V8" else c!"<unknown>")),
        (c!"runtime", .str (if p / 16 = 1 then c!"Node.js" else c!"<unknown>"))]

theorem engine_mod (p : Nat) : p &&& 0xF = p % 16 := Nat.and_two_pow_sub_one_eq_mod p 4

theorem runtime_div (p : Nat) : p >>> 4 = p / 16 := Nat.shiftRight_eq_div_pow p 4

theorem platform_rend (p : Nat) : Rend (toks (platformVal p)) (platformToJson p) := by
  unfold platformVal platformToJson engineName runtimeName
  rw [engine_mod, runtime_div]
  by_cases h1 : p % 16 = 1 <;> by_cases h2 : p / 16 = 1 <;> simp only [h1, h2, if_true, if_false]
  · exact rend_lit 100 (by decide)
  · exact rend_lit 100 (by decide)
  · exact rend_lit 100 (by decide)
  · exact rend_lit 100 (by decide)

theorem platform_read (p : Nat) : platformFromJson (platformVal p) = some (keepPlatform p) := by
  unfold platformVal keepPlatform
  by_cases h1 : p % 16 = 1 <;> by_cases h2 : p / 16 = 1 <;> simp only [h1, h2, if_true, if_false] <;> decide

/-- What a stack trace becomes. -/
def keep (t : JsTrace) : JsTrace := { t with frames := t.frames.map keepFrame, platform := keepPlatform t.platform }

def traceVals (t : JsTrace) : List (Str × Value) :=
  strVal c!"exception_name" t.exceptionName ++ (arrVal c!"stacktrace" (fun f => .obj (frameVals f)) t.frames ++
  (if t.platform ≠ 0 then [(c!"platform", platformVal t.platform)] else []))

theorem trace_rend (t : JsTrace) (h : ∀ f ∈ t.frames, Some f) : Rend (toks (.obj (traceVals t))) (toJson t) := by
  refine Body.finishSafely (Body.append (Body.strMember 100 (by decide) rfl _)
    (Body.append (Body.framesMember 100 (by decide) rfl _ _ _ fun f hf => frame_rend f (h f hf))
      (Body.ite (fun _ => ?_) fun _ => Body.nil)))
  exact Body.one 100 (by decide) rfl ((platform_rend _).indent 8)

theorem trace_read (t : JsTrace) : fromJson (.obj (traceVals t)) = some (keep t) := by
  have g1 : readStr (.obj (traceVals t)) c!"exception_name" none = some t.exceptionName := by
    apply readStr_of; member traceVals
  have g2 : readArray (.obj (traceVals t)) c!"stacktrace" frameFromJson = some (t.frames.map keepFrame) := by
    refine readArray_arrVal (v := fun f => .obj (frameVals f)) ?_ fun f _ => frame_read f
    member traceVals
  have g3 : get (.obj (traceVals t)) c!"platform" = if t.platform ≠ 0 then some (platformVal t.platform) else none := by
    member traceVals
  have g4 : readPlatform (.obj (traceVals t)) = some (keepPlatform t.platform) := by
    unfold readPlatform
    rw [g3]
    by_cases hp : t.platform = 0
    · rw [if_neg (by simp [hp]), hp]; rfl
    · rw [if_pos hp]; exact platform_read _
  rw [fromJson, if_neg (by simp [isObject]), g1, g2, g4]
  rfl

/-- C44: if something is known about every frame, what is written for a JavaScript stack trace is a JSON document from which
the same stack trace is read, except that numbers saturate at 2^31 - 1 and that engine and runtime of the platform change
places. -/
theorem C44_read_back (t : JsTrace) (h : ∀ f ∈ t.frames, Some f) :
    (parse (toJson t)).bind fromJson = some (keep t) := by
  rw [parse_toks (trace_rend t h)]
  exact trace_read t

/-- The frames that survive. -/
def FrameWF (f : JsFrame) : Prop := Some f ∧ f.fileLine < 2 ^ 31 ∧ f.lineColumn < 2 ^ 31

/-- C44, for stack traces with no platform or with Node.js (1) on V8 (1), whose frames all have some attribute and numbers
below 2^31 (missing: stack traces with a frame without any attribute, for which the text is not JSON, see
`C44_not_empty_frame`, larger numbers, see `C44_not_high_line`, and other platforms, see `C44_not_partial_platform`). -/
theorem C44_round_trip_partial (t : JsTrace) (h : ∀ f ∈ t.frames, FrameWF f)
    (hp : t.platform = 0 ∨ t.platform = 16 * 1 + 1) : (parse (toJson t)).bind fromJson = some t := by
  rw [C44_read_back t fun f hf => (h f hf).1]
  refine congrArg _ ?_
  unfold keep
  rw [map_keep]
  · obtain ⟨e, f, p⟩ := t
    rcases hp with rfl | rfl <;> simp [keepPlatform]
  · rintro ⟨fn, fl, lc, fun_⟩ hf
    obtain ⟨-, h1, h2⟩ := h _ hf
    simp only [keepFrame, keep32_of h1, keep32_of h2]

/-- C44 is violated: for a frame without attributes the text is not JSON. -/
theorem C44_not_empty_frame : parse (toJson { exceptionName := c!"E", frames := [{}] }) = none := by decide +kernel

/-- C44 is violated: line numbers above 2^31 - 1 change. -/
theorem C44_not_high_line : ∃ t : JsTrace, (∀ f ∈ t.frames, Some f ∧ f.fileLine < 2 ^ 32) ∧ t.platform = 0 ∧
    (parse (toJson t)).bind fromJson ≠ some t := by
  refine ⟨{ frames := [{ fileLine := 2 ^ 31 }] }, by simp [Some], rfl, ?_⟩
  rw [C44_read_back _ (by simp [Some])]
  simp [keep, keepFrame, keep32]

/-- C44 is violated: a platform with a known runtime, Node.js, and no engine becomes one with a known engine, V8, and no
runtime. -/
theorem C44_not_partial_platform : (parse (toJson { platform := 16 * 1 + 0 })).bind fromJson = some { platform := 1 } := by
  rw [C44_read_back _ (by simp)]
  rfl

example : ∀ f ∈ [({ fileName := c!"/usr/lib/x.js", fileLine := 13, lineColumn := 7, functionName := c!"Object.<anonymous>" } :
    JsFrame)], FrameWF f := by simp [FrameWF, Some]

end Js

namespace Java

/-- What a frame becomes: the line is lost if there is no file name, and saturates. -/
def keepFrame (f : JavaFrame) : JavaFrame := { f with fileLine := if f.fileName = none then 0 else keep32 f.fileLine }

def frameVals (f : JavaFrame) : List (Str × Value) :=
  strVal c!"name" f.name ++
  (strVal c!"file_name" f.fileName ++
  ((if f.fileName ≠ none then [(c!"file_line", .num f.fileLine)] else []) ++
  (strVal c!"class_path" f.classPath ++
  ([(c!"is_native", .bool f.isNative)] ++
  ([(c!"is_exception", .bool f.isException)] ++
  strVal c!"message" f.message)))))

theorem frame_rend (f : JavaFrame) : Rend (toks (.obj (frameVals f))) (frameToJson f) := by
  refine Body.finish ?_ (by simp [frameVals])
  refine Body.append (Body.strMember 100 (by decide) rfl _) ?_
  refine Body.append (Body.strMember 100 (by decide) rfl _) ?_
  refine Body.append (Body.ite (fun _ => Body.numMember 100 (by decide) rfl _) fun _ => Body.nil) ?_
  refine Body.append (Body.strMember 100 (by decide) rfl _) ?_
  refine Body.append (Body.one 100 (by decide) rfl (rend_bool _)) ?_
  refine Body.append (Body.one 100 (by decide) rfl (rend_bool _)) ?_
  exact Body.strMember 100 (by decide) rfl _

theorem frame_read (f : JavaFrame) : frameFromJson (.obj (frameVals f)) = some (keepFrame f) := by
  have g1 : readStr (.obj (frameVals f)) c!"name" none = some f.name := by
    apply readStr_of; member frameVals
  have g2 : readStr (.obj (frameVals f)) c!"file_name" none = some f.fileName := by
    apply readStr_of; member frameVals
  have g3 : readU32 (.obj (frameVals f)) c!"file_line" 0 = some (if f.fileName = none then 0 else keep32 f.fileLine) := by
    by_cases hn : f.fileName = none
    · rw [if_pos hn, readU32, show get (.obj (frameVals f)) c!"file_line" = none by member frameVals; exact hn]
    · rw [if_neg hn]
      apply readU32_of; member frameVals; exact hn
  have g4 : readStr (.obj (frameVals f)) c!"class_path" none = some f.classPath := by
    apply readStr_of; member frameVals
  have g5 : readBool (.obj (frameVals f)) c!"is_native" false = some f.isNative := by
    apply readBool_of; member frameVals
  have g6 : readBool (.obj (frameVals f)) c!"is_exception" false = some f.isException := by
    apply readBool_of; member frameVals
  have g7 : readStr (.obj (frameVals f)) c!"message" none = some f.message := by
    apply readStr_of; member frameVals
  rw [frameFromJson, if_neg (by simp [isObject]), g1, g2, g3, g4, g5, g6, g7]
  rfl

def keepThread (t : JavaThread) : JavaThread := { t with frames := t.frames.map keepFrame }

def threadVals (t : JavaThread) : List (Str × Value) :=
  strVal c!"name" t.name ++ arrVal c!"frames" (fun f => .obj (frameVals f)) t.frames

theorem thread_rend (t : JavaThread) : Rend (toks (.obj (threadVals t))) (threadToJson t) :=
  Body.finishSafely (Body.append (Body.strMember 100 (by decide) rfl _)
    (Body.framesMember 100 (by decide) rfl _ _ _ fun f _ => frame_rend f))

theorem thread_read (t : JavaThread) : threadFromJson (.obj (threadVals t)) = some (keepThread t) := by
  have g1 : readStr (.obj (threadVals t)) c!"name" none = some t.name := by
    apply readStr_of; member threadVals
  have g2 : readArray (.obj (threadVals t)) c!"frames" frameFromJson = some (t.frames.map keepFrame) := by
    refine readArray_arrVal (v := fun f => .obj (frameVals f)) ?_ fun f _ => frame_read f
    member threadVals
  rw [threadFromJson, if_neg (by simp [isObject]), g1, g2]
  rfl

def keep (t : JavaTrace) : JavaTrace := { t with threads := t.threads.map keepThread }

def traceVal (t : JavaTrace) : Value := .obj [(c!"threads", .arr (t.threads.map fun th => .obj (threadVals th)))]

theorem trace_rend (t : JavaTrace) : Rend (toks (traceVal t)) (toJson t) := by
  unfold toJson
  by_cases h : t.threads = []
  · rw [if_neg (by simp [h]), traceVal, h]
    exact rend_lit 100 (by decide)
  · rw [if_pos h]
    have h1 : Rend [.lbrace, .str c!"threads", .colon] c!"{   \"threads\":\n" := rend_lit 100 (by decide)
    have h2 := (h1.append (rend_array (fun th => Value.obj (threadVals th)) threadToJson t.threads h
      fun th _ => thread_rend th)).append (rend_lit (s := c!"}") (ts := [.rbrace]) 100 (by decide))
    simpa [traceVal, toks, memberToks, moreMemberToks] using h2

theorem trace_read (t : JavaTrace) : fromJson (traceVal t) = some (keep t) := by
  have g1 : readArray (traceVal t) c!"threads" threadFromJson = some (t.threads.map keepThread) := by
    refine readArray_of (v := fun th => .obj (threadVals th)) ?_ fun th _ => thread_read th
    member traceVal
  rw [fromJson, if_neg (by simp [isObject, traceVal]), g1]
  rfl

/-- C45: what is written for a Java stack trace is a JSON document from which the same stack trace is read, except that lines
saturate at 2^31 - 1 and that lines without a file name are lost. -/
theorem C45_read_back (t : JavaTrace) : (parse (toJson t)).bind fromJson = some (keep t) := by
  rw [parse_toks (trace_rend t)]
  exact trace_read t

/-- The frames that survive. -/
def FrameWF (f : JavaFrame) : Prop := f.fileLine < 2 ^ 31 ∧ (f.fileName = none → f.fileLine = 0)

/-- C45, for stack traces in which lines are below 2^31 and frames without a file name have no line (missing: other lines, see
`C45_not_high_line` and `C45_not_line_without_file`). -/
theorem C45_round_trip_partial (t : JavaTrace) (h : ∀ th ∈ t.threads, ∀ f ∈ th.frames, FrameWF f) :
    (parse (toJson t)).bind fromJson = some t := by
  rw [C45_read_back t]
  refine congrArg _ ?_
  unfold keep
  rw [map_keep]
  intro th hth
  unfold keepThread
  rw [map_keep]
  rintro ⟨n, fn, fl, cp, a, b, m⟩ hf
  obtain ⟨h1, h2⟩ := h th hth _ hf
  simp only [keepFrame, keep32_of h1]
  split
  · next e =>
    have : fl = 0 := h2 e
    rw [this]
  · rfl

/-- C45 is violated: line numbers above 2^31 - 1 change. -/
theorem C45_not_high_line : ∃ f : JavaFrame, f.fileName ≠ none ∧ f.fileLine < 2 ^ 32 ∧
    (parse (toJson { threads := [{ frames := [f] }] })).bind fromJson ≠ some { threads := [{ frames := [f] }] } := by
  refine ⟨{ fileName := c!"A.java", fileLine := 2 ^ 31 }, by simp, by simp, ?_⟩
  rw [C45_read_back]
  simp [keep, keepThread, keepFrame, keep32]

/-- C45 is violated: a line without a file name is lost. -/
theorem C45_not_line_without_file :
    (parse (toJson { threads := [{ frames := [{ name := c!"m", fileLine := 7 }] }] })).bind fromJson =
      some { threads := [{ frames := [{ name := c!"m" }] }] } := by
  rw [C45_read_back]
  rfl

example : FrameWF { name := c!"SimpleTest.throwNullPointerException", fileName := c!"SimpleTest.java", fileLine := 36,
                    classPath := c!"/usr/lib/java/", isNative := true } := by simp [FrameWF]

end Java
end Satyr.Json
