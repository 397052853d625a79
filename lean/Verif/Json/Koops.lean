import Verif.Json.KoopsModel
import Verif.Json.Lemmas
import Mathlib.Data.List.Nodup
/-!
# C41 and C57: the JSON form of kernel oopses
-/
namespace Satyr.Json.Koops
open Satyr.CStr Satyr.Frames Satyr.Koops

/-! ## Specification: what is read back -/

/-- What a 64-bit number becomes: it saturates at 2^63 - 1. -/
def keep64 (n : Nat) : Nat := min n (2 ^ 63 - 1)

/-- What a frame becomes. -/
def keepFrame (f : KoopsFrame) : KoopsFrame :=
  { f with
    address := keep64 f.address
    functionOffset := keep64 f.functionOffset
    functionLength := keep64 f.functionLength
    fromAddress := keep64 f.fromAddress
    fromFunctionOffset := keep64 f.fromFunctionOffset
    fromFunctionLength := keep64 f.fromFunctionLength }

/-- What a stack trace becomes: the reason is not written. -/
def keep (t : KoopsTrace) : KoopsTrace := { t with frames := t.frames.map keepFrame, reason := none }

/-! ## Frames -/

def frameVals (f : KoopsFrame) : List (Str × Value) :=
  (if f.address ≠ 0 then [(c!"address", .num f.address)] else []) ++
  ((c!"reliable", .bool f.reliable) ::
  (strVal c!"function_name" f.functionName ++
  ((c!"function_offset", .num f.functionOffset) ::
  ((c!"function_length", .num f.functionLength) ::
  (strVal c!"module_name" f.moduleName ++
  ((if f.fromAddress ≠ 0 then [(c!"from_address", .num f.fromAddress)] else []) ++
  (strVal c!"from_function_name" f.fromFunctionName ++
  ((c!"from_function_offset", .num f.fromFunctionOffset) ::
  ((c!"from_function_length", .num f.fromFunctionLength) ::
  (strVal c!"from_module_name" f.fromModuleName ++
  strVal c!"special_stack" f.specialStack))))))))))

/-- The members with a comma in front of each. -/
def frameCommas (f : KoopsFrame) : Str :=
  (if f.address ≠ 0 then numMember c!",   \"address\": " f.address else []) ++
  ((c!",   \"reliable\": " ++ ((if f.reliable then c!"true" else c!"false") ++ ['\n'])) ++ frameRest f)

theorem Body.cons {m : Str × Value} {l : List (Str × Value)} {s t : Str} (h : Body [m] s) (h' : Body l t) :
    Body (m :: l) (s ++ t) := h.append h'

theorem rend_bool (b : Bool) : Rend (toks (.bool b)) ((if b then c!"true" else c!"false") ++ ['\n']) := by
  cases b <;> exact rend_lit 100 (by decide)

theorem frame_body (f : KoopsFrame) : Body (frameVals f) (frameCommas f) := by
  refine Body.append (Body.ite (fun _ => Body.numMember 100 (by decide) rfl _) fun _ => Body.nil) ?_
  refine Body.cons (Body.one 100 (by decide) rfl (rend_bool _)) ?_
  refine Body.append (Body.strMember 100 (by decide) rfl _) ?_
  refine Body.cons (Body.numMember 100 (by decide) rfl _) ?_
  refine Body.cons (Body.numMember 100 (by decide) rfl _) ?_
  refine Body.append (Body.strMember 100 (by decide) rfl _) ?_
  refine Body.append (Body.ite (fun _ => Body.numMember 100 (by decide) rfl _) fun _ => Body.nil) ?_
  refine Body.append (Body.strMember 100 (by decide) rfl _) ?_
  refine Body.cons (Body.numMember 100 (by decide) rfl _) ?_
  refine Body.cons (Body.numMember 100 (by decide) rfl _) ?_
  refine Body.append (Body.strMember 100 (by decide) rfl _) ?_
  exact Body.strMember 100 (by decide) rfl _

theorem frame_rend (f : KoopsFrame) : Rend (toks (.obj (frameVals f))) (frameToJson f) := by
  have := (frame_body f).object (by simp [frameVals]) [] rfl
  refine Eq.subst (motive := fun s => Rend (toks (.obj (frameVals f))) s) ?_ this
  unfold frameCommas frameToJson numMember
  by_cases h : f.address = 0 <;> simp [h]

theorem read_nonzero {j : Value} {key : Str} {n : Nat} (h : get j key = if n ≠ 0 then some (.num n) else none) :
    readU64 j key 0 = some (keep64 n) := by
  by_cases hn : n = 0
  · rw [if_neg (by simp [hn])] at h
    rw [readU64, h, hn]
    rfl
  · rw [if_pos hn] at h
    exact readU64_of 0 h

theorem frame_read (f : KoopsFrame) : frameFromJson (.obj (frameVals f)) = some (keepFrame f) := by
  have g1 : readU64 (.obj (frameVals f)) c!"address" 0 = some (keep64 f.address) := read_nonzero (by json_get frameVals)
  have g2 : readBool (.obj (frameVals f)) c!"reliable" false = some f.reliable := readBool_of _ (by json_get frameVals)
  have g3 : readStr (.obj (frameVals f)) c!"function_name" none = some f.functionName := readStr_of (by json_get frameVals)
  have g4 : readU64 (.obj (frameVals f)) c!"function_offset" 0 = some (keep64 f.functionOffset) :=
    readU64_of 0 (by json_get frameVals)
  have g5 : readU64 (.obj (frameVals f)) c!"function_length" 0 = some (keep64 f.functionLength) :=
    readU64_of 0 (by json_get frameVals)
  have g6 : readStr (.obj (frameVals f)) c!"module_name" none = some f.moduleName := readStr_of (by json_get frameVals)
  have g7 : readU64 (.obj (frameVals f)) c!"from_address" 0 = some (keep64 f.fromAddress) :=
    read_nonzero (by json_get frameVals)
  have g8 : readStr (.obj (frameVals f)) c!"from_function_name" none = some f.fromFunctionName :=
    readStr_of (by json_get frameVals)
  have g9 : readU64 (.obj (frameVals f)) c!"from_function_offset" 0 = some (keep64 f.fromFunctionOffset) :=
    readU64_of 0 (by json_get frameVals)
  have g10 : readU64 (.obj (frameVals f)) c!"from_function_length" 0 = some (keep64 f.fromFunctionLength) :=
    readU64_of 0 (by json_get frameVals)
  have g11 : readStr (.obj (frameVals f)) c!"from_module_name" none = some f.fromModuleName :=
    readStr_of (by json_get frameVals)
  have g12 : readStr (.obj (frameVals f)) c!"special_stack" none = some f.specialStack := readStr_of (by json_get frameVals)
  rw [frameFromJson, if_neg (by simp [isObject]), g1, g2, g3, g4, g5, g6, g7, g8, g9, g10, g11, g12]
  rfl

/-! ## Taint flags -/

/-- The names of the flags that are set, in the order of the table. -/
def flagNames (t : Taints) : List Str := (flags.filter fun f => f.get t).map Flag.name

theorem flag_rend (f : Flag) (hf : f ∈ flags) : Rend [.comma, .str f.name] (c!", \"" ++ (f.name ++ c!"\"\n")) := by
  have h : ∀ f ∈ flags, lexLit 100 (c!", \"" ++ (f.name ++ c!"\"\n")) = some [.comma, .str f.name] := by decide +kernel
  exact rend_lit 100 (h f hf)

theorem flags_rend (l : List Flag) (hl : ∀ f ∈ l, f ∈ flags) (t : Taints) :
    Rend (((l.filter fun f => f.get t).map Flag.name).flatMap fun s => [.comma, .str s])
      (l.flatMap fun f => if f.get t = true then c!", \"" ++ (f.name ++ c!"\"\n") else []) := by
  induction l with
  | nil => exact Rend.nil
  | cons f l ih =>
    have ih := ih fun g hg => hl g (by simp [hg])
    rw [List.flatMap_cons]
    by_cases h : f.get t = true
    · rw [if_pos h, List.filter_cons_of_pos (p := fun f : Flag => f.get t) h, List.map_cons, List.flatMap_cons]
      exact (flag_rend f (hl f (by simp))).append ih
    · rw [if_neg h, List.filter_cons_of_neg (p := fun f : Flag => f.get t) h]
      exact ih

theorem body_shape (l : List Flag) (t : Taints)
    (hne : (l.flatMap fun f => if f.get t = true then c!", \"" ++ (f.name ++ c!"\"\n") else []) ≠ []) :
    ∃ m, (l.flatMap fun f => if f.get t = true then c!", \"" ++ (f.name ++ c!"\"\n") else []) = ',' :: (m ++ ['\n']) := by
  induction l with
  | nil => exact absurd rfl hne
  | cons f l ih =>
    rw [List.flatMap_cons] at hne ⊢
    by_cases hl : (l.flatMap fun f => if f.get t = true then c!", \"" ++ (f.name ++ c!"\"\n") else []) = []
    · rw [hl] at hne ⊢
      by_cases h : f.get t = true
      · rw [if_pos h]
        exact ⟨c!" \"" ++ (f.name ++ c!"\""), by simp⟩
      · rw [if_neg h] at hne; exact absurd rfl hne
    · obtain ⟨m, hm⟩ := ih hl
      rw [hm]
      by_cases h : f.get t = true
      · rw [if_pos h]
        exact ⟨c!" \"" ++ (f.name ++ c!"\"\n,") ++ m, by simp⟩
      · rw [if_neg h]
        exact ⟨m, rfl⟩

theorem rend_drop_newline {ts : List Tok} {s : Str} (h : Rend ts (s ++ ['\n'])) (sp : Char) (hsp : isWs sp = true) :
    Rend ts (s ++ [sp]) := by
  generalize hx : s ++ ['\n'] = x at h
  induction h generalizing s with
  | nil => exact absurd hx (by simp)
  | @ws c ts y hc hy ih =>
    cases s with
    | nil =>
      simp only [List.nil_append, List.cons.injEq] at hx
      obtain ⟨rfl, rfl⟩ := hx
      exact Rend.ws hsp hy
    | cons d s =>
      obtain ⟨rfl, rfl⟩ := List.cons.inj hx
      exact Rend.ws hc (ih rfl)
  | @lbrace ts y hy ih =>
    cases s with
    | nil => exact absurd (List.cons.inj hx).1 (by decide)
    | cons d s => obtain ⟨rfl, rfl⟩ := List.cons.inj hx; exact Rend.lbrace (ih rfl)
  | @rbrace ts y hy ih =>
    cases s with
    | nil => exact absurd (List.cons.inj hx).1 (by decide)
    | cons d s => obtain ⟨rfl, rfl⟩ := List.cons.inj hx; exact Rend.rbrace (ih rfl)
  | @lbracket ts y hy ih =>
    cases s with
    | nil => exact absurd (List.cons.inj hx).1 (by decide)
    | cons d s => obtain ⟨rfl, rfl⟩ := List.cons.inj hx; exact Rend.lbracket (ih rfl)
  | @rbracket ts y hy ih =>
    cases s with
    | nil => exact absurd (List.cons.inj hx).1 (by decide)
    | cons d s => obtain ⟨rfl, rfl⟩ := List.cons.inj hx; exact Rend.rbracket (ih rfl)
  | @colon ts y hy ih =>
    cases s with
    | nil => exact absurd (List.cons.inj hx).1 (by decide)
    | cons d s => obtain ⟨rfl, rfl⟩ := List.cons.inj hx; exact Rend.colon (ih rfl)
  | @comma ts y hy ih =>
    cases s with
    | nil => exact absurd (List.cons.inj hx).1 (by decide)
    | cons d s => obtain ⟨rfl, rfl⟩ := List.cons.inj hx; exact Rend.comma (ih rfl)
  | @null ts y hy ih =>
    obtain ⟨z, rfl, rfl⟩ : ∃ z, s = c!"null" ++ z ∧ y = z ++ ['\n'] := by
      rcases List.append_eq_append_iff.1 hx with ⟨a, ha, hb⟩ | ⟨a, ha, hb⟩
      · cases a with
        | nil => exact ⟨[], by simpa using ha.symm, by simpa using hb.symm⟩
        | cons d a =>
          simp only [List.cons_append] at hb
          have h1 := (List.cons.inj hb).2
          have h2 := (List.append_eq_nil_iff.1 h1.symm)
          rw [h2.1] at ha
          have h3 := congrArg List.getLast? ha
          have h4 := (List.cons.inj hb).1
          subst h4
          simp at h3
      · exact ⟨a, ha, hb⟩
    have := Rend.null (ih rfl)
    simpa using this
  | @true ts y hy ih =>
    obtain ⟨z, rfl, rfl⟩ : ∃ z, s = c!"true" ++ z ∧ y = z ++ ['\n'] := by
      rcases List.append_eq_append_iff.1 hx with ⟨a, ha, hb⟩ | ⟨a, ha, hb⟩
      · cases a with
        | nil => exact ⟨[], by simpa using ha.symm, by simpa using hb.symm⟩
        | cons d a =>
          simp only [List.cons_append] at hb
          have h1 := (List.cons.inj hb).2
          have h2 := (List.append_eq_nil_iff.1 h1.symm)
          rw [h2.1] at ha
          have h3 := congrArg List.getLast? ha
          have h4 := (List.cons.inj hb).1
          subst h4
          simp at h3
      · exact ⟨a, ha, hb⟩
    have := Rend.true (ih rfl)
    simpa using this
  | @false ts y hy ih =>
    obtain ⟨z, rfl, rfl⟩ : ∃ z, s = c!"false" ++ z ∧ y = z ++ ['\n'] := by
      rcases List.append_eq_append_iff.1 hx with ⟨a, ha, hb⟩ | ⟨a, ha, hb⟩
      · cases a with
        | nil => exact ⟨[], by simpa using ha.symm, by simpa using hb.symm⟩
        | cons d a =>
          simp only [List.cons_append] at hb
          have h1 := (List.cons.inj hb).2
          have h2 := (List.append_eq_nil_iff.1 h1.symm)
          rw [h2.1] at ha
          have h3 := congrArg List.getLast? ha
          have h4 := (List.cons.inj hb).1
          subst h4
          simp at h3
      · exact ⟨a, ha, hb⟩
    have := Rend.false (ih rfl)
    simpa using this
  | @num n c ts y hc hy ih =>
    rcases List.eq_nil_or_concat y with rfl | ⟨y', d, rfl⟩
    · have h1 := List.append_inj' hx rfl
      rw [h1.1]
      exact Rend.num n hsp hy
    · have e : natDec n ++ c :: y'.concat d = (natDec n ++ c :: y') ++ [d] := by simp
      rw [e] at hx
      obtain ⟨rfl, hd⟩ := List.append_inj' hx rfl
      simp only [List.cons.injEq, and_true] at hd
      subst hd
      have := Rend.num n hc (ih (s := y') (by simp))
      simpa using this
  | @str x ts y hy ih =>
    rcases List.eq_nil_or_concat y with rfl | ⟨y', d, rfl⟩
    · have e : '"' :: (x.flatMap escapeChar ++ ['"']) = ('"' :: x.flatMap escapeChar) ++ ['"'] := by simp
      rw [e] at hx
      have h1 := (List.append_inj' hx rfl).2
      exact absurd h1 (by decide)
    · have e : '"' :: (x.flatMap escapeChar ++ '"' :: y'.concat d) = ('"' :: (x.flatMap escapeChar ++ '"' :: y')) ++ [d] := by
        simp
      rw [e] at hx
      obtain ⟨rfl, hd⟩ := List.append_inj' hx rfl
      simp only [List.cons.injEq, and_true] at hd
      subst hd
      have := Rend.str x (ih (s := y') (by simp))
      simpa using this

theorem moreItems_names (l : List Str) :
    moreItemToks (l.map Value.str) = (l.flatMap fun s => [.comma, .str s]) ++ [.rbracket] := by
  induction l with
  | nil => rfl
  | cons s l ih => rw [List.map_cons, moreItemToks, ih]; simp [toks]

theorem flagsText_rend (t : Taints) : Rend (toks (.arr ((flagNames t).map Value.str))) (flagsText t) := by
  have h := flags_rend flags (fun _ h => h) t
  unfold flagsText
  by_cases hb : flagsBody t = []
  · rw [if_pos hb]
    have hn : flagNames t = [] := by
      have hl := h.length
      change ((flagNames t).flatMap fun s => [Tok.comma, .str s]).length ≤ (flagsBody t).length at hl
      rw [hb, List.length_nil] at hl
      have : ((flagNames t).flatMap fun s => [Tok.comma, .str s]) = [] := List.length_eq_zero_iff.1 (Nat.le_zero.1 hl)
      cases hx : flagNames t with
      | nil => rfl
      | cons a l => rw [hx] at this; simp at this
    rw [hn]
    exact rend_lit 100 (by decide)
  · rw [if_neg hb]
    obtain ⟨m, hm⟩ := body_shape flags t hb
    change Rend ((flagNames t).flatMap fun s => [Tok.comma, .str s]) (flagsBody t) at h
    change flagsBody t = _ at hm
    rw [hm] at h ⊢
    cases hx : flagNames t with
    | nil =>
      rw [hx] at h
      generalize hy : ',' :: (m ++ ['\n']) = y at h
      cases h with
      | nil => simp at hy
      | ws hc h => obtain ⟨rfl, -⟩ := List.cons.inj hy; simp [isWs] at hc
    | cons a l =>
      rw [hx, List.flatMap_cons] at h
      have h1 := Rend.comma_inv h
      have h2 := rend_drop_newline h1 ' ' rfl
      have h3 := Rend.lbracket (h2.append (Rend.rbracket Rend.nil))
      rw [List.map_cons, toks, itemToks, toks, moreItems_names]
      simpa using h3

/-! ## Modules -/

theorem modules_rend (l : List Str) : Rend (itemToks (l.map Value.str)) (modulesLoop l ++ c!" ]\n") := by
  have hclose : Rend [.rbracket] c!" ]\n" := rend_lit 100 (by decide)
  have more : ∀ l : List Str, ∀ a, Rend (.str a :: moreItemToks (l.map Value.str)) (modulesLoop (a :: l) ++ c!" ]\n") := by
    intro l
    induction l with
    | nil => intro a; exact (rend_escaped a).append hclose
    | cons b l ih =>
      intro a
      have hc : Rend [.comma] c!"      , " := rend_lit 100 (by decide)
      have := (rend_escaped a).append (Rend.ws (c := '\n') rfl (hc.append (ih b)))
      simpa [modulesLoop, moreItemToks, toks] using this
  cases l with
  | nil => exact hclose
  | cons a l =>
    have := more l a
    simpa [itemToks, toks] using this

/-- The members for the modules. -/
def modulesVal (o : Option (List Str)) : List (Str × Value) :=
  match o with
  | none => []
  | some l => [(c!"modules", .arr (l.map Value.str))]

theorem modules_body (o : Option (List Str)) : Body (modulesVal o) (modulesText o) := by
  cases o with
  | none => exact Body.nil
  | some l =>
    refine Body.one 100 (by decide) rfl ?_
    have ho : Rend [.lbracket] c!"      [ " := rend_lit 100 (by decide)
    have := ho.append (modules_rend l)
    simpa [toks] using this

theorem get_modulesVal (o : Option (List Str)) (key : Str) :
    get (.obj (modulesVal o)) key = if c!"modules" = key then o.map (fun l => Value.arr (l.map Value.str)) else none := by
  cases o with
  | none => simp [modulesVal, get_obj_nil]
  | some l => rw [modulesVal, get_obj_one]; rfl

theorem readModules_ok (l : List Str) (i : Nat) (h : i + l.length < 128) :
    readModules 128 (128 * 8) i (l.map Value.str) = .ok l := by
  induction l generalizing i with
  | nil =>
    have : (i + 1) * 8 ≤ 128 * 8 := by simp at h; omega
    rw [List.map_nil, readModules, if_pos this]
  | cons s l ih =>
    rw [List.length_cons] at h
    have h1 : ¬ (i + 1 = 128) := by omega
    have h2 : (i + 1) * 8 ≤ 128 * 8 := by omega
    rw [List.map_cons, readModules]
    rw [if_neg h1, if_neg h1, if_pos h2, ih (i + 1) (by omega)]
    rfl

theorem readModules_ub (l : List Value) (i : Nat) (hi : i ≤ 127) (h : 128 ≤ i + l.length) :
    readModules 128 (128 * 8) i l = .ub := by
  induction l generalizing i with
  | nil => simp at h; omega
  | cons v l ih =>
    rw [List.length_cons] at h
    cases v with
    | str s =>
      rw [readModules]
      by_cases h1 : i + 1 = 128
      · have : ¬ ((i + 1) * 8 ≤ 128 * 2) := by omega
        rw [if_pos h1, if_pos h1, if_neg this]
      · have h2 : (i + 1) * 8 ≤ 128 * 8 := by omega
        rw [if_neg h1, if_neg h1, if_pos h2, ih (i + 1) (by omega) (by omega)]
        rfl
    | _ => rfl

/-! ## Stack traces -/

def traceVals (t : KoopsTrace) : List (Str × Value) :=
  strVal c!"raw_oops" t.rawOops ++
  (strVal c!"version" t.version ++
  ((c!"taint_flags", .arr ((flagNames t.taint).map Value.str)) ::
  (modulesVal t.modules ++
  (if t.frames ≠ [] then [(c!"frames", .arr (t.frames.map fun f => .obj (frameVals f)))] else []))))

theorem trace_body (t : KoopsTrace) : Body (traceVals t) (traceBody t) := by
  refine Body.append (Body.strMember 100 (by decide) rfl _) ?_
  refine Body.append (Body.strMember 100 (by decide) rfl _) ?_
  have h1 : Body [(c!"taint_flags", .arr ((flagNames t.taint).map Value.str))]
      (c!",   \"taint_flags\": " ++ (indentExceptFirst 19 (flagsText t.taint) ++ ['\n'])) :=
    Body.one 100 (by decide) rfl (((flagsText_rend t.taint).indent 19).ws_end rfl)
  have h2 : Body (modulesVal t.modules ++
      (if t.frames ≠ [] then [(c!"frames", .arr (t.frames.map fun f => .obj (frameVals f)))] else []))
      (modulesText t.modules ++
      (if t.frames ≠ [] then c!",   \"frames\":\n" ++ arrayText (t.frames.map frameToJson) else [])) := by
    refine Body.append (modules_body _) (Body.ite (fun h => ?_) fun _ => Body.nil)
    exact Body.one 100 (by decide) rfl (rend_array _ _ _ h fun f _ => frame_rend f)
  have := Body.cons h1 h2
  simpa using this

theorem trace_rend (t : KoopsTrace) : Rend (toks (.obj (traceVals t))) (toJson t) := by
  have h := trace_body t
  have hne : traceVals t ≠ [] := by simp [traceVals]
  have hb : traceBody t ≠ [] := fun e => hne (h.2.1.2 e)
  have := h.object hne [] rfl
  rw [toJson, if_pos hb]
  simpa using this

theorem readFlags_names (l : List Str) (t : Taints) :
    ∃ u, readFlags t (l.map Value.str) = some u ∧ ∀ f ∈ flags, f.get u = (l.contains f.name || f.get t) := by
  induction l generalizing t with
  | nil => exact ⟨t, rfl, fun f _ => by simp⟩
  | cons s l ih =>
    obtain ⟨u, h1, h2⟩ := ih (setName s t)
    refine ⟨u, h1, fun f hf => ?_⟩
    rw [h2 f hf, get_setName hf, List.contains_cons]
    generalize (f.name == s) = b1
    generalize l.contains f.name = b2
    cases b1 <;> cases b2 <;> simp

theorem flags_read (t : Taints) : readFlags {} ((flagNames t).map Value.str) = some t := by
  obtain ⟨u, h1, h2⟩ := readFlags_names (flagNames t) {}
  rw [h1]
  refine congrArg some (flags_ext u t fun f hf => ?_)
  rw [h2 f hf]
  have h0 : ∀ f ∈ flags, f.get {} = false := by decide +kernel
  rw [h0 f hf, Bool.or_false, Bool.eq_iff_iff, List.contains_iff_mem, flagNames, List.mem_map]
  constructor
  · rintro ⟨g, hg, he⟩
    rw [List.mem_filter] at hg
    obtain rfl := List.inj_on_of_nodup_map flags_names hg.1 hf he
    exact hg.2
  · intro h
    exact ⟨f, List.mem_filter.2 ⟨hf, h⟩, rfl⟩

theorem trace_head (t : KoopsTrace) : headFromJson (.obj (traceVals t)) = some (t.version, t.rawOops, t.taint) := by
  have g1 : readStr (.obj (traceVals t)) c!"version" none = some t.version :=
    readStr_of (by simp [traceVals, get_obj_append, get_obj_cons, get_strVal, get_ite, get_obj_nil, get_modulesVal])
  have g2 : readStr (.obj (traceVals t)) c!"raw_oops" none = some t.rawOops :=
    readStr_of (by simp [traceVals, get_obj_append, get_obj_cons, get_strVal, get_ite, get_obj_nil, get_modulesVal])
  have g3 : flagsFromJson (.obj (traceVals t)) = some t.taint := by
    have : get (.obj (traceVals t)) c!"taint_flags" = some (.arr ((flagNames t.taint).map Value.str)) := by
      simp [traceVals, get_obj_append, get_obj_cons, get_strVal, get_ite, get_obj_nil, get_modulesVal]
    rw [flagsFromJson, this]
    exact flags_read t.taint
  rw [headFromJson, if_neg (by simp [isObject]), g1, g2, g3]
  rfl

theorem trace_modules (t : KoopsTrace) : get (.obj (traceVals t)) c!"modules" =
    t.modules.map fun l => Value.arr (l.map Value.str) := by
  simp [traceVals, get_obj_append, get_obj_cons, get_strVal, get_ite, get_obj_nil, get_modulesVal]

theorem trace_frames (t : KoopsTrace) :
    readArray (.obj (traceVals t)) c!"frames" frameFromJson = some (t.frames.map keepFrame) := by
  have : get (.obj (traceVals t)) c!"frames" =
      if t.frames ≠ [] then some (.arr (t.frames.map fun f => .obj (frameVals f))) else none := by
    simp [traceVals, get_obj_append, get_obj_cons, get_strVal, get_ite, get_obj_nil, get_modulesVal]
  by_cases h : t.frames = []
  · rw [if_neg (by simp [h])] at this
    rw [readArray, this, h]
    rfl
  · rw [if_pos h] at this
    exact readArray_of this fun f _ => frame_read f

/-- C41: what is written for a kernel oops is a JSON document. If the oops has fewer than 128 modules the same stack trace is
read from it, except for the differences described by `keep`: numbers of 64 bits saturate at 2^63 - 1 and the reason is
lost. -/
theorem C41_read_back (t : KoopsTrace) (hm : ∀ l, t.modules = some l → l.length < 128) :
    (parse (toJson t)).map fromJson = some (.ok (some (keep t))) := by
  rw [parse_toks (trace_rend t), Option.map_some, fromJson, trace_head]
  have g : modulesFromJson (.obj (traceVals t)) = .ok (some t.modules) := by
    rw [modulesFromJson, trace_modules]
    cases h : t.modules with
    | none => rfl
    | some l =>
      have := readModules_ok l 0 (by simpa using hm l h)
      dsimp only [Option.map_some]
      rw [this]
      rfl
  dsimp only
  rw [g]
  dsimp only
  rw [trace_frames]
  rfl

/-- The numbers of a frame are below 2^63. -/
def FrameWF (f : KoopsFrame) : Prop :=
  f.address < 2 ^ 63 ∧ f.functionOffset < 2 ^ 63 ∧ f.functionLength < 2 ^ 63 ∧ f.fromAddress < 2 ^ 63 ∧
  f.fromFunctionOffset < 2 ^ 63 ∧ f.fromFunctionLength < 2 ^ 63

theorem keepFrame_of {f : KoopsFrame} (h : FrameWF f) : keepFrame f = f := by
  obtain ⟨h1, h2, h3, h4, h5, h6⟩ := h
  have hk : ∀ {n : Nat}, n < 2 ^ 63 → keep64 n = n := fun h => by unfold keep64; omega
  unfold keepFrame
  rw [hk h1, hk h2, hk h3, hk h4, hk h5, hk h6]

/-- C41: a kernel oops with fewer than 128 modules, no recorded reason and numbers below 2^63 is read back unchanged. -/
theorem C41_round_trip_partial (t : KoopsTrace) (hm : ∀ l, t.modules = some l → l.length < 128) (hr : t.reason = none)
    (hf : ∀ f ∈ t.frames, FrameWF f) : (parse (toJson t)).map fromJson = some (.ok (some t)) := by
  rw [C41_read_back t hm]
  have e : t.frames.map keepFrame = t.frames := by
    conv_rhs => rw [← List.map_id t.frames]
    exact List.map_congr_left fun f h => keepFrame_of (hf f h)
  rw [keep, e, ← hr]

/-- An oops with flags, modules and frames. -/
def exampleOops : KoopsTrace :=
  { version := some c!"3.6", taint := { mce := true, livePatched := true }, modules := some [c!"fuse", c!"ext4"]
    rawOops := some c!"BUG: \"x\"\n"
    frames := [{ address := 4096, reliable := true, functionName := some c!"f", functionOffset := 3, functionLength := 9 },
               { functionName := some c!"g", specialStack := some c!"IRQ" }] }

example : (∀ l, exampleOops.modules = some l → l.length < 128) ∧ exampleOops.reason = none ∧
    ∀ f ∈ exampleOops.frames, FrameWF f := by
  refine ⟨?_, rfl, ?_⟩
  · rintro l h
    obtain rfl := Option.some.inj h
    decide
  · simp [exampleOops, FrameWF]

/-- Not every oops survives: the reason is lost. -/
theorem C41_not_reason : (parse (toJson { reason := some c!"BUG" })).map fromJson = some (.ok (some {})) :=
  C41_read_back _ (by simp)

/-- Not every oops survives: addresses of the kernel saturate. -/
theorem C41_not_high_address :
    (parse (toJson { frames := [{ address := 0xffffffff811c6ed5 }] })).map fromJson =
      some (.ok (some { frames := [{ address := 0x7fffffffffffffff }] })) :=
  C41_read_back _ (by simp)

/-- Not every oops survives: with 128 modules or more the reader writes outside its array. -/
theorem C41_not_many_modules (t : KoopsTrace) (l : List Str) (hm : t.modules = some l) (h : 128 ≤ l.length) :
    (parse (toJson t)).map fromJson = some .ub := by
  rw [parse_toks (trace_rend t), Option.map_some, fromJson, trace_head]
  have g : modulesFromJson (.obj (traceVals t)) = .ub := by
    rw [modulesFromJson, trace_modules, hm]
    have := readModules_ub (l.map Value.str) 0 (by omega) (by simpa using h)
    dsimp only [Option.map_some]
    rw [this]
    rfl
  dsimp only
  rw [g]

/-! ## C57 -/

/-- C57: if the document has a list of flags that are strings, exactly the named flags are set. -/
theorem C57_flags_json (members : List (Str × Value)) (names : List Str)
    (h : get (.obj members) c!"taint_flags" = some (.arr (names.map Value.str))) :
    ∃ u, flagsFromJson (.obj members) = some u ∧ ∀ f ∈ flags, f.get u = true ↔ f.name ∈ names := by
  obtain ⟨u, h1, h2⟩ := readFlags_names names {}
  refine ⟨u, by rw [flagsFromJson, h]; exact h1, fun f hf => ?_⟩
  have h0 : ∀ f ∈ flags, f.get {} = false := by decide +kernel
  rw [h2 f hf, h0 f hf, Bool.or_false, List.contains_iff_mem]

/-- C57: the flags are written and read back. -/
theorem C57_flags_round_trip (t : Taints) :
    ∃ v, parse (flagsText t) = some v ∧ flagsFromJson (.obj [(c!"taint_flags", v)]) = some t := by
  refine ⟨_, parse_toks (flagsText_rend t), ?_⟩
  rw [flagsFromJson, get_obj_one, if_pos rfl]
  exact flags_read t

/-- C57: fewer than 128 modules are read completely and inside of the array. -/
theorem C57_modules_json_partial (members : List (Str × Value)) (names : List Str)
    (h : get (.obj members) c!"modules" = some (.arr (names.map Value.str))) (hn : names.length < 128) :
    modulesFromJson (.obj members) = .ok (some (some names)) := by
  rw [modulesFromJson, h]
  dsimp only
  rw [readModules_ok names 0 (by simpa using hn)]
  rfl

/-- C57 fails for 128 modules and more: the array is reallocated too small and written outside of its bounds. -/
theorem C57_not_many_modules (members : List (Str × Value)) (l : List Value)
    (h : get (.obj members) c!"modules" = some (.arr l)) (hn : 128 ≤ l.length) :
    modulesFromJson (.obj members) = .ub := by
  rw [modulesFromJson, h]
  dsimp only
  rw [readModules_ub l 0 (by omega) (by simpa using hn)]
  rfl

end Satyr.Json.Koops
