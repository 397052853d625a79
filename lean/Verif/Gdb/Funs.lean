import Verif.Gdb.FunsModel
/-!
# C50: function lists of threads
-/
namespace Satyr.Gdb
open Satyr.CStr Satyr.Normalize Satyr.Frames

theorem lastSpace_none (a rest : Str) (fuel c libname : Nat) (hc : c < a.length) (h : ' ' ∉ a.drop (c + 1)) :
    lastSpace (a ++ '\n' :: rest) a.length fuel c libname = libname := by
  cases fuel with
  | zero => rfl
  | succ fuel =>
    rw [lastSpace]
    cases hk : strchrI ' ' ((a ++ '\n' :: rest).drop (c + 1)) with
    | none => rfl
    | some k =>
      obtain ⟨u, v, h1, -, rfl⟩ := strchrI_some.1 hk
      dsimp only
      rw [if_pos]
      rw [List.drop_append_of_le_length (by omega)] at h1
      by_contra hlt
      apply h
      have h2 : (a.drop (c + 1) ++ '\n' :: rest)[u.length]? = some ' ' := by rw [h1]; simp
      have hl : (a.drop (c + 1)).length = a.length - (c + 1) := List.length_drop ..
      rcases Nat.lt_or_ge u.length (a.drop (c + 1)).length with h3 | h3
      · rw [List.getElem?_append_left h3] at h2
        exact List.mem_of_getElem? h2
      · have : u.length - (a.drop (c + 1)).length = 0 := by omega
        rw [List.getElem?_append_right h3, this] at h2
        simp at h2

theorem lastSpace_some (u v rest : Str) (hv : ' ' ∉ v) : ∀ (fuel c libname : Nat), c < u.length → u.length - c ≤ fuel →
    lastSpace (u ++ ' ' :: v ++ '\n' :: rest) (u ++ ' ' :: v).length fuel c libname = u.length := by
  intro fuel
  induction fuel with
  | zero => intro c l h1 h2; omega
  | succ fuel ih =>
    intro c libname h1 h2
    have hd : (u ++ ' ' :: v ++ '\n' :: rest).drop (c + 1) = u.drop (c + 1) ++ ' ' :: (v ++ '\n' :: rest) := by
      rw [List.append_assoc, List.drop_append_of_le_length (by omega)]
      simp
    rw [lastSpace, hd]
    cases hk : strchrI ' ' (u.drop (c + 1) ++ ' ' :: (v ++ '\n' :: rest)) with
    | none => exact absurd (by simp) (strchrI_none.1 hk)
    | some k =>
      obtain ⟨x, y, e1, e2, rfl⟩ := strchrI_some.1 hk
      have hl : (u.drop (c + 1)).length = u.length - (c + 1) := List.length_drop ..
      have hle : x.length ≤ (u.drop (c + 1)).length := by
        by_contra hlt
        apply e2
        have : (x ++ ' ' :: y)[(u.drop (c + 1)).length]? = some ' ' := by rw [← e1]; simp
        rw [List.getElem?_append_left (by omega)] at this
        exact List.mem_of_getElem? this
      dsimp only
      rw [if_neg (by simp; omega)]
      rcases Nat.lt_or_ge (c + 1 + x.length) u.length with h3 | h3
      · exact ih _ _ h3 (by omega)
      · have : c + 1 + x.length = u.length := by omega
        rw [this]
        exact lastSpace_none _ _ _ _ _ (by simp) (by simpa using hv)

theorem funFrame_plain (a rest : Str) (number : Nat) (h0 : a ≠ []) (h : ' ' ∉ a.tail) :
    funFrame (a ++ '\n' :: rest) a.length number = { newFrame with functionName := some a, number := number } := by
  have hp : 0 < a.length := List.length_pos_iff.2 h0
  have : lastSpace (a ++ '\n' :: rest) a.length (a ++ '\n' :: rest).length 0 a.length = a.length :=
    lastSpace_none _ _ _ _ _ hp (by simpa using h)
  simp only [funFrame, this]
  rw [if_neg (by omega)]
  simp [strndup, newFrame]

theorem funFrame_lib (n l rest : Str) (number : Nat) (h0 : n ≠ []) (h : ' ' ∉ l) :
    funFrame (n ++ ' ' :: l ++ '\n' :: rest) (n ++ ' ' :: l).length number =
      { newFrame with functionName := some n, libraryName := if l = [] then none else some l, number := number } := by
  have hp : 0 < n.length := List.length_pos_iff.2 h0
  have := lastSpace_some n l rest h (n ++ ' ' :: l ++ '\n' :: rest).length 0 (n ++ ' ' :: l).length hp (by simp)
  simp only [funFrame, this]
  have e1 : strndup (n ++ ' ' :: l ++ '\n' :: rest) n.length = n := by simp [strndup]
  have e2 : strndup ((n ++ ' ' :: l ++ '\n' :: rest).drop (n.length + 1)) ((n ++ ' ' :: l).length - n.length - 1) = l := by
    have : (n ++ ' ' :: l ++ '\n' :: rest).drop (n.length + 1) = l ++ '\n' :: rest := by
      rw [List.append_assoc, List.drop_append]; simp
    rw [this]
    have : (n ++ ' ' :: l).length - n.length - 1 = l.length := by simp
    rw [this]
    simp [strndup]
  rw [e1, e2]
  by_cases hl : l = []
  · simp [hl]
  · have : 0 < l.length := List.length_pos_iff.2 hl
    rw [if_neg hl, if_pos (by simp; omega)]

/-! ## Lines -/

theorem parse_line (a rest : Str) (fuel number : Nat) (h0 : a ≠ []) (h : '\n' ∉ a.tail) :
    parseFunsLoop (fuel + 1) number (a ++ '\n' :: rest) =
      funFrame (a ++ '\n' :: rest) a.length number :: parseFunsLoop fuel (number + 1) rest := by
  cases a with
  | nil => exact absurd rfl h0
  | cons x a =>
    rw [parseFunsLoop, if_neg (by simp)]
    have : strchrI '\n' ((x :: a ++ '\n' :: rest).drop 1) = some a.length :=
      strchrI_some.2 ⟨a, rest, rfl, h, rfl⟩
    rw [this]
    dsimp only
    have : (x :: a ++ '\n' :: rest).drop (a.length + 2) = rest := by
      rw [List.cons_append, List.drop_succ_cons, List.drop_append]; simp
    rw [this]
    rfl

/-- The frames that are read back: a name that is not empty, followed by the name of a library that is not empty and contains
no space, or the name alone without spaces; no newlines. -/
def Clean (f : GdbFrame) : Prop :=
  ∀ n, f.functionName = some n → n ≠ [] ∧ '\n' ∉ n ∧
    match f.libraryName with
    | none => ' ' ∉ n
    | some l => l ≠ [] ∧ ' ' ∉ l ∧ '\n' ∉ l

/-- The frames read from the text of other frames: only the names and positions are kept. -/
def renumber : Nat → List GdbFrame → List GdbFrame
  | _, [] => []
  | i, f :: fs => { newFrame with functionName := f.functionName, libraryName := f.libraryName, number := i } ::
      renumber (i + 1) fs

theorem parse_format (fs : List GdbFrame) (h : ∀ f ∈ fs, Clean f) : ∀ (fuel number : Nat),
    (fs.flatMap formatFun).length < fuel →
    parseFunsLoop fuel number (fs.flatMap formatFun) = renumber number (fs.filter fun f => f.functionName.isSome) := by
  induction fs with
  | nil => intro fuel number _; cases fuel <;> rfl
  | cons f fs ih =>
    intro fuel number hf
    have ih := ih fun g hg => h g (by simp [hg])
    have hc := h f (by simp)
    obtain ⟨fn, ft, nu, sf, sl, sh, ad, li⟩ := f
    cases fn with
    | none => simpa [formatFun] using ih fuel number (by simpa [formatFun] using hf)
    | some n =>
      obtain ⟨h1, h2, h3⟩ := hc n rfl
      dsimp only at h3
      cases fuel with
      | zero => omega
      | succ fuel =>
        cases li with
        | none =>
          have e : ((⟨some n, ft, nu, sf, sl, sh, ad, none⟩ : GdbFrame) :: fs).flatMap formatFun =
              n ++ '\n' :: fs.flatMap formatFun := by simp [formatFun]
          rw [e] at hf ⊢
          rw [parse_line _ _ _ _ h1 (fun hm => h2 (List.mem_of_mem_tail hm)), funFrame_plain _ _ _ h1 (fun hm => h3 (List.mem_of_mem_tail hm)),
            ih _ _ (by rw [List.length_append, List.length_cons] at hf; omega)]
          rfl
        | some l =>
          obtain ⟨h4, h5, h6⟩ := h3
          have e : ((⟨some n, ft, nu, sf, sl, sh, ad, some l⟩ : GdbFrame) :: fs).flatMap formatFun =
              (n ++ ' ' :: l) ++ '\n' :: fs.flatMap formatFun := by simp [formatFun]
          rw [e] at hf ⊢
          rw [parse_line _ _ _ _ (by simp) (fun hm => absurd (List.mem_of_mem_tail hm) (by simp [h2, h6])), funFrame_lib _ _ _ _ h1 h5, if_neg h4,
            ih _ _ (by rw [List.length_append, List.length_cons] at hf; omega)]
          rfl

/-- The name and the library of a frame. -/
def names (f : GdbFrame) : Option Str × Option Str := (f.functionName, f.libraryName)

theorem names_renumber (i : Nat) (fs : List GdbFrame) : (renumber i fs).map names = fs.map names := by
  induction fs generalizing i with
  | nil => rfl
  | cons f fs ih => rw [renumber, List.map_cons, ih]; rfl

theorem numbers_renumber (i : Nat) (fs : List GdbFrame) : (renumber i fs).map GdbFrame.number = List.range' i fs.length := by
  induction fs generalizing i with
  | nil => rfl
  | cons f fs ih => rw [renumber, List.map_cons, ih, List.length_cons, List.range'_succ]

/-- C50: from the list of functions written for a thread, the same names of functions and libraries are read, in the same
order and numbered from 0; frames without a function name are left out. -/
theorem C50_round_trip (t : GdbThread) (h : ∀ f ∈ t.frames, Clean f) :
    (parseFuns (formatFuns t)).frames.map names = (t.frames.filter fun f => f.functionName.isSome).map names ∧
    (parseFuns (formatFuns t)).frames.map GdbFrame.number =
      List.range (t.frames.filter fun f => f.functionName.isSome).length := by
  have e : (parseFuns (formatFuns t)).frames = renumber 0 (t.frames.filter fun f => f.functionName.isSome) :=
    parse_format t.frames h _ 0 (Nat.lt_succ_self _)
  rw [e, names_renumber, numbers_renumber, List.range_eq_range']
  exact ⟨rfl, rfl⟩

example : ∀ f ∈ [({ functionName := some c!"operator new", libraryName := some c!"libstdc++.so" } : GdbFrame), {},
    { functionName := some c!"main" }], Clean f := by
  intro f hf n hn
  simp only [List.mem_cons, List.not_mem_nil, or_false] at hf
  rcases hf with rfl | rfl | rfl <;> cases hn <;> decide

/-- The lines that are written as they were read: not empty, and not ending in a space that separates nothing. -/
def CleanLine (l : Str) : Prop := l ≠ [] ∧ '\n' ∉ l ∧ (l.getLast? = some ' ' → l = [' '])

theorem format_funFrame (a rest : Str) (i : Nat) (h : CleanLine a) : formatFun (funFrame (a ++ '\n' :: rest) a.length i) =
    a ++ ['\n'] := by
  obtain ⟨h1, h2, h3⟩ := h
  by_cases hs : ' ' ∈ a.tail
  · obtain ⟨u, v, e1, e2⟩ := last_split hs
    cases a with
    | nil => exact absurd rfl h1
    | cons x a =>
      have ea : x :: a = (x :: u) ++ ' ' :: v := by rw [List.cons_append, ← e1]; rfl
      rw [ea] at h3 ⊢
      rw [funFrame_lib _ _ _ _ (by simp) e2, if_neg]
      · simp [formatFun]
      · rintro rfl
        have := h3 (by simp [List.getLast?_append, List.getLast?_cons])
        simp at this
  · rw [funFrame_plain _ _ _ h1 hs]
    simp [formatFun, newFrame]

theorem format_parse (ls : List Str) (h : ∀ l ∈ ls, CleanLine l) : ∀ (fuel number : Nat),
    (ls.flatMap fun l => l ++ ['\n']).length < fuel →
    (parseFunsLoop fuel number (ls.flatMap fun l => l ++ ['\n'])).flatMap formatFun = ls.flatMap fun l => l ++ ['\n'] := by
  induction ls with
  | nil => intro fuel number _; cases fuel <;> rfl
  | cons l ls ih =>
    intro fuel number hf
    have hl := h l (by simp)
    cases fuel with
    | zero => omega
    | succ fuel =>
      have e : (l :: ls).flatMap (fun l => l ++ ['\n']) = l ++ '\n' :: ls.flatMap fun l => l ++ ['\n'] := by simp
      rw [e] at hf ⊢
      rw [parse_line _ _ _ _ hl.1 (fun hm => hl.2.1 (List.mem_of_mem_tail hm)), List.flatMap_cons, format_funFrame _ _ _ hl,
        ih (fun x hx => h x (by simp [hx])) _ _ (by rw [List.length_append, List.length_cons] at hf; exact Nat.lt_of_le_of_lt (Nat.le_add_left _ l.length) (Nat.lt_of_succ_lt_succ hf))]
      simp

/-- C50: a text of lines that are not empty and do not end in a space is written as it was read. -/
theorem C50_text (ls : List Str) (h : ∀ l ∈ ls, CleanLine l) :
    formatFuns (parseFuns (ls.flatMap fun l => l ++ ['\n'])) = ls.flatMap fun l => l ++ ['\n'] :=
  format_parse ls h _ 0 (Nat.lt_succ_self _)

example : ∀ l ∈ [c!"main libc.so", c!"operator new [] x"], CleanLine l := by
  intro l hl
  simp only [List.mem_cons, List.not_mem_nil, or_false] at hl
  rcases hl with rfl | rfl <;> exact ⟨by simp, by decide, by decide⟩

/-- The names on a line: the part after the last space, which is not the first character of the line, is the library. -/
def OnLine (line : Str) (function : Str) (library : Option Str) : Prop :=
  ' ' ∉ line.tail ∧ function = line ∧ library = none ∨
    ∃ l, function ≠ [] ∧ line = function ++ ' ' :: l ∧ ' ' ∉ l ∧ library = if l = [] then none else some l

/-- A frame made from the line with the number `i`: what is not on the line is not known. -/
def FunFrame (line : Str) (i : Nat) (f : GdbFrame) : Prop :=
  ∃ function library, OnLine line function library ∧
    f = { functionName := some function, functionType := none, number := i, sourceFile := none, sourceLine := 2 ^ 32 - 1,
          signalHandlerCalled := false, address := 2 ^ 64 - 1, libraryName := library }

theorem funFrame_onLine (a rest : Str) (i : Nat) (h0 : a ≠ []) : FunFrame a i (funFrame (a ++ '\n' :: rest) a.length i) := by
  by_cases hs : ' ' ∈ a.tail
  · obtain ⟨u, v, e1, e2⟩ := last_split hs
    cases a with
    | nil => exact absurd rfl h0
    | cons x a =>
      have ea : x :: a = (x :: u) ++ ' ' :: v := by rw [List.cons_append, ← e1]; rfl
      rw [ea, funFrame_lib _ _ _ _ (by simp) e2]
      exact ⟨x :: u, _, .inr ⟨v, by simp, rfl, e2, rfl⟩, rfl⟩
  · rw [funFrame_plain _ _ _ h0 hs]
    exact ⟨a, none, .inl ⟨hs, rfl, rfl⟩, rfl⟩

theorem parseFuns_lines (ls : List Str) (last : Str) (h : ∀ l ∈ ls, l ≠ [] ∧ '\n' ∉ l.tail) (hl : '\n' ∉ last.tail) :
    ∀ (fuel number : Nat), (ls.flatMap fun l => l ++ ['\n']).length < fuel →
    List.Forall₂ (fun p f => FunFrame p.1 p.2 f) (ls.zipIdx number)
      (parseFunsLoop fuel number ((ls.flatMap fun l => l ++ ['\n']) ++ last)) := by
  induction ls with
  | nil =>
    intro fuel number hf
    cases fuel with
    | zero => omega
    | succ fuel =>
      rw [List.flatMap_nil, List.nil_append, parseFunsLoop]
      split
      · exact .nil
      · have : strchrI '\n' (last.drop 1) = none := by
          rw [strchrI_none, List.drop_one]; exact hl
        rw [this]; exact .nil
  | cons l ls ih =>
    intro fuel number hf
    have h1 := h l (by simp)
    cases fuel with
    | zero => omega
    | succ fuel =>
      have e : (l :: ls).flatMap (fun l => l ++ ['\n']) ++ last = l ++ '\n' :: ((ls.flatMap fun l => l ++ ['\n']) ++ last) := by simp
      rw [e, parse_line _ _ _ _ h1.1 h1.2]
      refine .cons (funFrame_onLine _ _ _ h1.1) (ih (fun x hx => h x (by simp [hx])) _ _ ?_)
      rw [List.flatMap_cons, List.length_append, List.length_append, List.length_singleton] at hf
      omega

/-- C50: what is read from any text. Every text is made up of such lines (a newline at the beginning of a line does not end it). -/
theorem C50_lines (ls : List Str) (last : Str) (h : ∀ l ∈ ls, l ≠ [] ∧ '\n' ∉ l.tail) (hl : '\n' ∉ last.tail) :
    List.Forall₂ (fun p f => FunFrame p.1 p.2 f) ls.zipIdx (parseFuns ((ls.flatMap fun l => l ++ ['\n']) ++ last)).frames ∧
    (parseFuns ((ls.flatMap fun l => l ++ ['\n']) ++ last)).number = 2 ^ 32 - 1 ∧
    (parseFuns ((ls.flatMap fun l => l ++ ['\n']) ++ last)).tid = 2 ^ 32 - 1 :=
  ⟨parseFuns_lines ls last h hl _ 0 (by rw [List.length_append]; omega), rfl, rfl⟩

example : ∀ l ∈ [c!"main libc.so", c!"\noperator new [] x", c!" "], l ≠ [] ∧ '\n' ∉ l.tail := by decide

/-- Every text is made up of such lines. -/
theorem C50_every_text (s : Str) : ∃ (ls : List Str) (last : Str), (∀ l ∈ ls, l ≠ [] ∧ '\n' ∉ l.tail) ∧ '\n' ∉ last.tail ∧
    s = (ls.flatMap fun l => l ++ ['\n']) ++ last := by
  generalize hn : s.length = n
  induction n using Nat.strongRecOn generalizing s with
  | _ n ih =>
    cases s with
    | nil => exact ⟨[], [], by simp, by simp, rfl⟩
    | cons x t =>
      cases hc : strchrI '\n' t with
      | none => exact ⟨[], x :: t, by simp, strchrI_none.1 hc, rfl⟩
      | some k =>
        obtain ⟨a, r, e, ha, -⟩ := strchrI_some.1 hc
        subst e
        obtain ⟨ls, last, h1, h2, h3⟩ := ih r.length (by rw [← hn]; simp; omega) r rfl
        refine ⟨(x :: a) :: ls, last, ?_, h2, by rw [h3]; simp⟩
        intro l hl
        obtain rfl | hl := List.mem_cons.1 hl
        · exact ⟨by simp, ha⟩
        · exact h1 l hl

/-- C50 needs the conditions: in a name without a library, the part after the last space is read as a library. -/
theorem C50_not_space : ∃ t : GdbThread, (parseFuns (formatFuns t)).frames.map names ≠ t.frames.map names :=
  ⟨{ frames := [{ functionName := some c!"operator new" }] }, by decide +kernel⟩

/-- C50 needs the conditions: after an empty name the following line is taken as a part of it. -/
theorem C50_not_empty : ∃ t : GdbThread, (parseFuns (formatFuns t)).frames.length < t.frames.length :=
  ⟨{ frames := [{ functionName := some [] }, { functionName := some c!"main" }] }, by decide +kernel⟩

end Satyr.Gdb
