import Verif.Short.Model
import Verif.Crash.Props
/-!
# C76: the short text has one line for each of the first frames
-/
namespace Satyr.Short
open Satyr.CStr Satyr.Frames Satyr.Normalize Satyr.Threads

/-! ## Specification -/

/-- How many of `n` frames are printed if at most `max` are wanted: 0 is no limit (and with a negative number there is one
frame). -/
def printed (max : Int) (n : Nat) : Nat := if max = 0 then n else if max < 0 then min 1 n else min max.toNat n

/-- The line of a frame: its number, counted from 1, and its text. -/
def line (i : Nat) (text : Str) : Str := c!"#" ++ natDec i ++ c!" " ++ text ++ c!"\n"

/-- The lines of frames, numbered from `i` on. -/
def lines : Nat → List Str → Str
  | _, [] => []
  | i, x :: xs => line i x ++ lines (i + 1) xs

/-! ## Proofs -/

variable {F : Type}

theorem lines_append (i : Nat) (xs ys : List Str) : lines i (xs ++ ys) = lines i xs ++ lines (i + xs.length) ys := by
  induction xs generalizing i with
  | nil => rfl
  | cons x xs ih =>
    rw [List.cons_append, lines, ih, lines, List.append_assoc, List.length_cons]
    have : i + 1 + xs.length = i + (xs.length + 1) := by omega
    rw [this]

/-- How many frames the loop prints after `i` frames. -/
def left (max : Int) (i n : Nat) : Nat := if max = 0 then n else min (Nat.max 1 (max.toNat - i)) n

theorem shortLoop_ok (print : F → Out Str) (max : Int) : ∀ (i : Nat) (fs : List F) (texts : List Str),
    List.Forall₂ (fun f x => print f = .ok x) (fs.take (left max i fs.length)) texts →
      shortLoop print max i fs = .ok (lines (i + 1) texts)
  | i, [], texts, h => by
    have : left max i ([] : List F).length = 0 := by unfold left; split <;> simp
    rw [this] at h
    cases h
    rfl
  | i, f :: fs, texts, h => by
    have h1 : left max i (f :: fs).length = (if max ≠ 0 ∧ max ≤ (i + 1 : Nat) then 0 else left max (i + 1) fs.length) + 1 := by
      unfold left
      rw [List.length_cons]
      by_cases h0 : max = 0
      · simp [h0]
      · rw [if_neg h0, if_neg h0]
        have hm : ∀ a b : Nat, Nat.max a b = Max.max a b := fun _ _ => rfl
        rw [hm, hm]
        split <;> omega
    rw [h1, List.take_succ_cons] at h
    cases h with
    | @cons _ x _ xs hx hr =>
      rw [shortLoop, hx, Out.bind_ok]
      dsimp only
      split at hr
      · next hc =>
        rw [if_pos hc]
        cases hr
        simp [lines, line]
      · next hc =>
        rw [if_neg hc, shortLoop_ok print max (i + 1) fs xs hr, Out.bind_ok]
        simp [lines, line]

theorem left_printed (max : Int) (n : Nat) : left max 0 n = printed max n := by
  unfold left printed
  split
  · rfl
  · have hm : ∀ a b : Nat, Nat.max a b = Max.max a b := fun _ _ => rfl
    rw [hm]
    split
    · have : max.toNat = 0 := by omega
      rw [this]; simp
    · have : Max.max 1 (max.toNat - 0) = max.toNat := by omega
      rw [this]

/-- C76: the short text is the lines of the first frames. -/
theorem C76_lines (print : F → Out Str) (fs : List F) (max : Int) (texts : List Str)
    (h : List.Forall₂ (fun f x => print f = .ok x) (fs.take (printed max fs.length)) texts) :
    shortText print (some fs) max = .ok (some (lines 1 texts)) := by
  show (shortLoop print max 0 fs >>= fun t => Out.ok (some t)) = _
  rw [shortLoop_ok print max 0 fs texts (by rw [left_printed]; exact h)]
  rfl

/-- C76: a limit only cuts the text: with a smaller limit the text is the beginning of what it is with a larger one. -/
theorem C76_prefix (print : F → Out Str) (fs : List F) (k m : Int) (texts : List Str) (hk : 0 < k) (hm : m = 0 ∨ k ≤ m)
    (h : List.Forall₂ (fun f x => print f = .ok x) fs texts) :
    ∃ a b, shortText print (some fs) k = .ok (some a) ∧ shortText print (some fs) m = .ok (some (a ++ b)) := by
  have ht : ∀ n, List.Forall₂ (fun f x => print f = .ok x) (fs.take n) (texts.take n) := fun n => List.forall₂_take n h
  refine ⟨_, lines (1 + (texts.take (printed k fs.length)).length) ((texts.take (printed m fs.length)).drop (printed k fs.length)),
    C76_lines print fs k _ (ht _), ?_⟩
  rw [C76_lines print fs m _ (ht _), ← lines_append]
  have hle : printed k fs.length ≤ printed m fs.length := by
    unfold printed
    rw [if_neg (by omega), if_neg (by omega)]
    rcases hm with rfl | hm
    · rw [if_pos rfl]; omega
    · rw [if_neg (by omega), if_neg (by omega)]; omega
  rw [show texts.take (printed k fs.length) = (texts.take (printed m fs.length)).take (printed k fs.length) by
    rw [List.take_take, Nat.min_eq_left hle], List.take_append_drop]

/-- C76: without a crash thread there is no text. -/
theorem C76_none (print : F → Out Str) (max : Int) : shortText print none max = .ok none := rfl

/-! ## The frames of the stack traces -/

/-- A core frame can be printed if its function or its build id is known. -/
theorem coreFrame_ok {f : CoreFrame} (h : f.functionName ≠ none ∨ f.buildId ≠ none) : ∃ x, coreFrame f = .ok x := by
  unfold coreFrame
  cases hn : f.functionName with
  | some n => exact ⟨_, rfl⟩
  | none =>
    cases hb : f.buildId with
    | some b => exact ⟨_, rfl⟩
    | none => exact absurd h (by simp [hn, hb])

/-- C76: what is printed for a core frame: the base name of the file in brackets; the function, or else the build id and the
offset. -/
theorem C76_core_frame (f : CoreFrame) (dir base : Str) (hb : '/' ∉ base) :
    (∀ n, f.functionName = some n → f.fileName = none → coreFrame f = .ok (c!" " ++ n)) ∧
    (∀ n, f.functionName = some n → f.fileName = some base → coreFrame f = .ok (c!"[" ++ base ++ c!"] " ++ n)) ∧
    (∀ n, f.functionName = some n → f.fileName = some (dir ++ c!"/" ++ base) → coreFrame f = .ok (c!"[" ++ base ++ c!"] " ++ n)) ∧
    (∀ b, f.functionName = none → f.buildId = some b → f.fileName = some (dir ++ c!"/" ++ base) →
      coreFrame f = .ok (c!"[" ++ base ++ c!"] " ++ b ++ c!"+" ++ natDec f.buildIdOffset)) := by
  have h1 : baseName base = base := by unfold baseName; rw [strrchrI_none.2 hb]
  have h2 : baseName (dir ++ c!"/" ++ base) = base := by
    unfold baseName
    rw [List.append_assoc]
    show (match strrchrI '/' (dir ++ '/' :: base) with | none => _ | some i => _) = _
    rw [strrchrI_append hb]
    simp
  refine ⟨?_, ?_, ?_, ?_⟩
  · intro n hn hf; unfold coreFrame; rw [hn, hf]; rfl
  · intro n hn hf; unfold coreFrame; rw [hn, hf]; simp [h1]
  · intro n hn hf
    unfold coreFrame
    rw [hn, hf]
    dsimp only
    rw [h2]; simp
  · intro b hn hb hf
    unfold coreFrame
    rw [hn, hf, hb]
    dsimp only
    rw [h2]; simp

/-- C76 fails for a core frame with neither a function name nor a build id: a null pointer is printed. -/
theorem C76_not_core : coreText { threads := [{ frames := [{ address := 1 }] }] } 0 = .ub := by decide +kernel

/-- A function that gives what is printed. -/
def textOf : Out Str → Str
  | .ok x => x
  | _ => []

/-- C76: the short text of core stack traces is defined if every frame of the crash thread has a function name or a build id. -/
theorem C76_core (t : CoreTrace) (max : Int) (fs : List CoreFrame) (hf : coreFrames t = some fs)
    (h : ∀ f ∈ fs, f.functionName ≠ none ∨ f.buildId ≠ none) :
    coreText t max = .ok (some (lines 1 ((fs.take (printed max fs.length)).map fun f => textOf (coreFrame f)))) := by
  unfold coreText
  rw [hf]
  refine C76_lines _ _ _ _ ?_
  rw [List.forall₂_map_right_iff, List.forall₂_same]
  intro f hf
  obtain ⟨x, hx⟩ := coreFrame_ok (h f (List.mem_of_mem_take hf))
  rw [hx]; rfl

theorem shortText_total (print : F → Str) (fs : List F) (max : Int) :
    shortText (fun f => .ok (print f)) (some fs) max = .ok (some (lines 1 ((fs.take (printed max fs.length)).map print))) := by
  refine C76_lines _ _ _ _ ?_
  rw [List.forall₂_map_right_iff, List.forall₂_same]
  exact fun f _ => rfl

/-- C76: the short texts of kernel oopses, Python, Ruby and Java stack traces are always defined. -/
theorem C76_total (max : Int) :
    (∀ t : KoopsTrace, koopsText t max = .ok (some (lines 1 ((t.frames.take (printed max t.frames.length)).map koopsFrame)))) ∧
    (∀ t : PythonTrace, pythonText t max = .ok (some (lines 1 ((t.frames.take (printed max t.frames.length)).map pythonFrame)))) ∧
    (∀ t : RubyTrace, rubyText t max = .ok (some (lines 1 ((t.frames.take (printed max t.frames.length)).map rubyFrame)))) ∧
    (∀ t : JavaTrace, t.threads = [] → javaText t max = .ok none) ∧
    (∀ (t : JavaTrace) (th : JavaThread) (ths : List JavaThread), t.threads = th :: ths → javaText t max =
      .ok (some (lines 1 ((th.frames.take (printed max th.frames.length)).map Text.Java.printFrame)))) := by
  refine ⟨fun t => shortText_total _ _ _, fun t => shortText_total _ _ _, fun t => shortText_total _ _ _, ?_, ?_⟩
  · intro t h; unfold javaText; rw [h]; rfl
  · intro t th ths h
    unfold javaText
    rw [h]
    exact shortText_total _ _ _

/-- C76: the short text of JavaScript stack traces is defined if every frame has a file name. -/
theorem C76_js (t : JsTrace) (max : Int) (h : ∀ f ∈ t.frames, f.fileName ≠ none) :
    jsText t max = .ok (some (lines 1 ((t.frames.take (printed max t.frames.length)).map fun f => textOf (Text.Js.printFrame f)))) := by
  refine C76_lines _ _ _ _ ?_
  rw [List.forall₂_map_right_iff, List.forall₂_same]
  intro f hf
  unfold Text.Js.printFrame
  cases hn : f.fileName with
  | none => exact absurd hn (h f (List.mem_of_mem_take hf))
  | some file => rfl

/-! ## The crash thread of core stack traces -/

/-- The thread has a function that ends the process, in one of the listed files if there are any. -/
def Ends (t : CoreThread) : Prop := ∃ f ∈ t.frames, ListedAny coreExitTable f.functionName f.fileName

theorem findExitThread_spec : ∀ (ts : List CoreThread) (i : Nat),
    (∀ j, findExitThread i ts = some j → ∃ k t, j = i + k ∧ ts[k]? = some t ∧ (findExit coreIsExit (Crash.nodes t.frames) none).isSome = true ∧
      ∀ m t', m < k → ts[m]? = some t' → (findExit coreIsExit (Crash.nodes t'.frames) none).isSome = false) ∧
    (findExitThread i ts = none → ∀ t ∈ ts, (findExit coreIsExit (Crash.nodes t.frames) none).isSome = false)
  | [], i => ⟨fun _ h => (by cases h), fun _ _ h => (by cases h)⟩
  | t :: ts, i => by
    rw [findExitThread]
    split
    · next h =>
      refine ⟨fun j hj => ⟨0, t, ?_, rfl, h, fun m _ hm => absurd hm (by omega)⟩, fun h => nomatch h⟩
      cases hj; rfl
    · next h =>
      have ih := findExitThread_spec ts (i + 1)
      refine ⟨fun j hj => ?_, fun hn t' ht' => ?_⟩
      · obtain ⟨k, u, h1, h2, h3, h4⟩ := ih.1 j hj
        refine ⟨k + 1, u, by omega, h2, h3, fun m t' hm ht' => ?_⟩
        cases m with
        | zero => cases ht'; simpa using h
        | succ m => exact h4 m t' (by omega) ht'
      · rcases List.mem_cons.1 ht' with rfl | ht'
        · simpa using h
        · exact ih.2 hn t' ht'

theorem ends_iff (t : CoreThread) : (findExit coreIsExit (Crash.nodes t.frames) none).isSome = true ↔ Ends t := by
  rw [Crash.findExit_isSome]
  unfold Ends
  simp only [Option.isSome_none, Bool.false_or, List.any_eq_true]
  have hv := Crash.nodes_val t.frames
  constructor
  · rintro ⟨n, hn, he⟩
    exact ⟨n.val, hv ▸ List.mem_map_of_mem hn, (any_coreCalls_iff _ _).1 he⟩
  · rintro ⟨f, hf, he⟩
    rw [← hv, List.mem_map] at hf
    obtain ⟨n, hn, rfl⟩ := hf
    exact ⟨n, hn, (any_coreCalls_iff _ _).2 he⟩

theorem not_ends (t : CoreThread) (h : (findExit coreIsExit (Crash.nodes t.frames) none).isSome = false) : ¬ Ends t := by
  intro he
  rw [(ends_iff t).2 he] at h
  cases h

/-- C76: the crash thread of a core stack trace: the recorded one; else the only one; else the first that ends the process. -/
theorem C76_core_thread (t : CoreTrace) :
    (∀ i, t.crashThread = some i → coreCrashThread t = some i) ∧
    (t.crashThread = none → t.threads = [] → coreCrashThread t = none) ∧
    (t.crashThread = none → ∀ th, t.threads = [th] → coreCrashThread t = some 0) ∧
    (t.crashThread = none → 2 ≤ t.threads.length →
      (∀ i, coreCrashThread t = some i → ∃ th, t.threads[i]? = some th ∧ Ends th ∧ ∀ j u, j < i → t.threads[j]? = some u → ¬ Ends u) ∧
      (coreCrashThread t = none → ∀ th ∈ t.threads, ¬ Ends th)) := by
  unfold coreCrashThread
  refine ⟨fun i h => by rw [h], fun h h' => by rw [h, h'], fun h th h' => by rw [h, h'], fun h h2 => ?_⟩
  rw [h]
  dsimp only
  cases ht : t.threads with
  | nil => rw [ht] at h2; exact absurd h2 (by simp)
  | cons a l =>
    cases l with
    | nil => rw [ht] at h2; exact absurd h2 (by simp)
    | cons b l =>
      dsimp only
      obtain ⟨h1, h2⟩ := findExitThread_spec (a :: b :: l) 0
      refine ⟨fun i hi => ?_, fun hn th hth => not_ends _ (h2 hn th hth)⟩
      obtain ⟨k, u, e1, e2, e3, e4⟩ := h1 i hi
      rw [Nat.zero_add] at e1
      subst e1
      exact ⟨u, e2, (ends_iff u).1 e3, fun j v hj hv => not_ends v (e4 j v hj hv)⟩

/-- Three frames, of which two are printed; one frame has no function name. -/
example : coreText { crashThread := some 1, threads := [{}, { frames := [
      { fileName := some c!"/usr/lib/libc.so.6", functionName := some c!"raise" },
      { fileName := some c!"/usr/bin/a", buildId := some c!"ab", buildIdOffset := 12 }, {}] }] } 2 =
    .ok (some c!"#1 [libc.so.6] raise\n#2 [a] ab+12\n") := by decide +kernel

example : coreCrashThread { threads := [{}, { frames := [{ functionName := some c!"__GI_abort" }] }] } = some 1 := by decide +kernel

example : koopsText { frames := [{ functionName := some c!"f", moduleName := some c!"m", specialStack := some c!"IRQ" }, { reliable := true }] } 0 =
    .ok (some c!"#1 [IRQ] ? f in m\n#2 ??\n") := by decide +kernel

example : pythonText { frames := [{ fileName := some c!"a.py", fileLine := 3, specialFunction := true, functionName := some c!"module" }] } (-1) =
    .ok (some c!"#1 [a.py:3] <module>\n") := by decide +kernel

example : rubyText { frames := [{ fileName := some c!"a.rb", fileLine := 3, functionName := some c!"f", blockLevel := 2, rescueLevel := 1 }] } 0 =
    .ok (some c!"#1 rescue in block (2 levels) in f in a.rb:3\n") := by decide +kernel

end Satyr.Short
