import Mathlib.Tactic.Push
import Mathlib.Tactic.ByContra
import Verif.Text.PythonLines
import Verif.Text.PythonLocModel
/-!
# C136: the place of an error in a Python traceback
-/
namespace Satyr.Text.Python
open Satyr.CStr Satyr.Frames

/-! ## Specification -/

/-- From `s`, where the frames begin, reading stops at `u`: no frame can be read there, or after the frames comes no name of an exception. -/
def Stops (s : Str) (fs : List PythonFrame) (u : Str) : Prop :=
  Frames s fs u ∧ (fs ≠ [] → u = [] ∨ peek u = ':' ∨ peek u = '\n')

/-- The line that is named. After a header in line `k` it is `k + 2`, or `k + 1` if the text begins with an empty line. In a text without
header, it is the line where the first file is found, counted from the line with the words `invalid syntax (`. -/
inductive Named (inp s : Str) : Int → Prop
  | header (pre : Str) : FirstAt header inp pre s → Named inp s ((locOf pre).line + if peek inp = '\n' then 1 else 2)
  | words (pre mid pre' rest : Str) : (¬ ∃ a b, inp = a ++ header ++ b) → FirstAt c!"invalid syntax (" inp pre mid →
      FirstAt c!"  File \"" (c!"invalid syntax (" ++ mid) pre' rest → s = c!"  File \"" ++ rest → Named inp s (locOf pre').line

/-! ## The functions with locations read the same -/

theorem add_one (l : Loc) (c : Int) : l.add 1 c = right l c := by
  unfold Loc.add right
  simp

theorem functionNameL_eq (s : Str) (loc : Loc) :
    (functionNameL s loc).bind (fun r => .ok (r.getRight?.map fun r => (r.1, r.2.1))) = functionName s := by
  unfold functionNameL functionName
  dsimp only
  split
  · split <;> rfl
  · rcases parseCharCspan (skipString s c!", in ").2 c!"\n" with ⟨_ | name, s⟩ | _ | _ <;> rfl

theorem sourceLineL_eq (s : Str) (loc : Loc) : (sourceLineL s loc).bind (fun r => .ok (r.1, r.2.1)) = sourceLine s := by
  unfold sourceLineL sourceLine
  dsimp only
  split
  · rcases parseCharCspan (skipString s c!"    ").2 c!"\n" with ⟨_ | name, s⟩ | _ | _
    · rfl
    · simp only [Out.bind_ok]
      rcases skipChar s '\n' with ⟨b, s⟩ | _ | _ <;> rfl
    · rfl
    · rfl
  · rfl

theorem frameBodyL_eq (s : Str) (loc : Loc) :
    (frameBodyL s loc).bind (fun r => .ok (r.getRight?.map fun r => (r.1, r.2.1))) = frameBody s := by
  unfold frameBodyL frameBody
  dsimp only
  split
  · rfl
  · rcases parseCharCspan (skipString s c!"  File \"").2 c!"\"" with ⟨_ | file, s⟩ | _ | _
    · rfl
    · simp only [Out.bind_ok]
      split
      · rfl
      · rcases parseUint32 (skipString s c!"\", line ").2 with ⟨len, _ | line, s⟩ | _ | _
        · rfl
        · simp only [Out.bind_ok]
          rw [← functionNameL_eq s (right loc (8 + (anonymizePath (stripSpecial file).2).length + 8 + len))]
          rcases functionNameL s _ with (m | ⟨fn, s, loc⟩) | _ | _
          · rfl
          · change Out.bind _ _ = Out.bind (Out.ok _) _
            rw [show ∀ (x : Option ((Bool × Str) × Str)) (g : Option ((Bool × Str) × Str) → Out (Option (PythonFrame × Str))), Out.bind (.ok x) g = g x
              from fun _ _ => rfl]
            simp only [Out.bind_ok, Sum.getRight?_inr, Option.map_some]
            rcases skipChar s '\n' with ⟨b, s⟩ | _ | _
            · simp only [Out.bind_ok]
              rw [← sourceLineL_eq s (if b = true then loc.add 1 0 else loc)]
              rcases sourceLineL s _ with ⟨c, s, loc⟩ | _ | _ <;> rfl
            · rfl
            · rfl
          · rfl
          · rfl
        · rfl
        · rfl
    · rfl
    · rfl

theorem functionNameL_line {s t : Str} {loc loc' : Loc} {fn : Bool × Str} (h : functionNameL s loc = .ok (.inr (fn, t, loc'))) :
    loc'.line = loc.line := by
  unfold functionNameL at h
  dsimp only at h
  split at h
  · split at h
    · cases h
    · cases h; rfl
  · generalize parseCharCspan (skipString s c!", in ").2 c!"\n" = y at h
    rcases y with ⟨_ | name, s⟩ | _ | _
    · cases h
    · cases h; rfl
    · cases h
    · cases h

theorem nl_line (b : Bool) (loc : Loc) : (if b = true then loc.add 1 0 else loc).line = loc.line := by
  rw [add_one]
  split <;> rfl

theorem sourceLineL_line {s t : Str} {loc loc' : Loc} {c : Option Str} (h : sourceLineL s loc = .ok (c, t, loc')) :
    loc'.line = loc.line := by
  unfold sourceLineL at h
  dsimp only at h
  split at h
  · generalize parseCharCspan (skipString s c!"    ").2 c!"\n" = y at h
    rcases y with ⟨_ | name, s⟩ | _ | _
    · cases h; rfl
    · simp only [Out.bind_ok] at h
      generalize skipChar s '\n' = y at h
      rcases y with ⟨b, s⟩ | _ | _
      · have := nl_line b loc
        cases h; exact this
      · cases h
      · cases h
    · cases h
    · cases h
  · cases h; rfl

theorem frameBodyL_line {s t : Str} {loc loc' : Loc} {f : PythonFrame} (h : frameBodyL s loc = .ok (.inr (f, t, loc'))) :
    loc'.line = loc.line := by
  unfold frameBodyL at h
  dsimp only at h
  split at h
  · cases h
  · generalize parseCharCspan (skipString s c!"  File \"").2 c!"\"" = y at h
    rcases y with ⟨_ | file, s⟩ | _ | _
    · cases h
    · simp only [Out.bind_ok] at h
      split at h
      · cases h
      · generalize parseUint32 (skipString s c!"\", line ").2 = y at h
        rcases y with ⟨len, _ | line, s⟩ | _ | _
        · cases h
        · simp only [Out.bind_ok] at h
          rcases hf : functionNameL s (right loc (8 + (anonymizePath (stripSpecial file).2).length + 8 + len)) with (m | ⟨fn, s, l1⟩) | _ | _
          · rw [hf] at h; cases h
          · rw [hf] at h
            simp only [Out.bind_ok] at h
            have e1 := functionNameL_line hf
            generalize skipChar s '\n' = y at h
            rcases y with ⟨b, s⟩ | _ | _
            · simp only [Out.bind_ok] at h
              rcases hs : sourceLineL s (if b = true then l1.add 1 0 else l1) with ⟨c, s, l2⟩ | _ | _
              · rw [hs] at h
                have e2 := sourceLineL_line hs
                have e3 := nl_line b l1
                cases h
                exact e2.trans (e3.trans e1)
              · rw [hs] at h; cases h
              · rw [hs] at h; cases h
            · cases h
            · cases h
          · rw [hf] at h; cases h
          · rw [hf] at h; cases h
        · cases h
        · cases h
    · cases h
    · cases h

/-- Reading a frame with locations. -/
theorem parseFrameL_some {s t : Str} {f : PythonFrame} (h : FrameText s f t) (loc : Loc) :
    ∃ loc' : Loc, parseFrameL s loc = .ok (.inr f, t, loc') ∧ loc'.line = loc.line := by
  obtain ⟨u, h1, h2⟩ := frameText_iff.1 h
  have e := frameBodyL_eq u loc
  rw [frameBody_iff.2 h2] at e
  unfold parseFrameL
  rw [skipErrorLine_iff.2 h1, Out.bind_ok]
  rcases hb : frameBodyL u loc with (m | ⟨f', t', loc'⟩) | _ | _
  · rw [hb] at e; cases e
  · rw [hb] at e
    injection e with e
    injection e with e
    injection e with e1 e2
    subst e1 e2
    exact ⟨loc', rfl, frameBodyL_line hb⟩
  · rw [hb] at e; cases e
  · rw [hb] at e; cases e

theorem parseFrameL_none {s t : Str} (h : AfterMarks s t) (hn : ¬ ∃ f u, FrameText s f u) (loc : Loc) :
    ∃ m, parseFrameL s loc = .ok (.inl m, t, loc) := by
  have hp := parseFrame_none.2 ⟨h, hn⟩
  have e := frameBodyL_eq t loc
  unfold parseFrame at hp
  unfold parseFrameL
  rw [skipErrorLine_iff.2 h, Out.bind_ok] at hp ⊢
  rcases hb : frameBodyL t loc with (m | ⟨f', t', loc'⟩) | _ | _
  · exact ⟨m, rfl⟩
  all_goals
    rw [hb] at e
    rw [← e] at hp
    simp only [Out.bind] at hp
    cases hp

theorem framesLoopL_line {s t : Str} {fs : List PythonFrame} (h : Frames s fs t) : ∀ (fuel : Nat) (loc floc : Loc) (acc : List PythonFrame),
    s.length < fuel → floc.line = 1 →
    ∃ (loc' : Loc) (m : Str), framesLoopL fuel s loc floc acc = .ok (fs.reverse ++ acc, t, loc', m) ∧ loc'.line = loc.line ∧
      (fs = [] → loc' = loc) := by
  induction h with
  | done s t h1 h2 =>
    intro fuel loc floc acc hl hf
    obtain ⟨n, rfl⟩ : ∃ n, fuel = n + 1 := ⟨fuel - 1, by omega⟩
    obtain ⟨m, hm⟩ := parseFrameL_none h1 h2 floc
    exact ⟨loc, m, by rw [framesLoopL, hm]; rfl, rfl, fun _ => rfl⟩
  | more s u t f fs h1 _ ih =>
    intro fuel loc floc acc hl hf
    obtain ⟨n, rfl⟩ : ∃ n, fuel = n + 1 := ⟨fuel - 1, by omega⟩
    obtain ⟨floc', h3, h4⟩ := parseFrameL_some h1 floc
    have hlt := parseFrame_post s _ ((C52_frame s f u).2 h1) f rfl
    dsimp only at hlt
    obtain ⟨loc', m, h5, h6, -⟩ := ih n (loc.add floc'.line floc'.column) floc' (f :: acc) (by omega) (h4.trans hf)
    refine ⟨loc', m, ?_, ?_, by simp⟩
    · rw [framesLoopL, h3, Out.bind_ok]
      dsimp only
      rw [h5]
      simp
    · rw [h6, h4, hf, add_one]
      rfl

theorem startL_eq (inp : Str) : (startL inp).bind (fun r => .ok (r.getRight?.map fun r => r.1)) = start inp := by
  unfold startL start
  rcases skipChar inp '\n' with ⟨b, s⟩ | _ | _
  · simp only [Out.bind_ok]
    rcases strstrLocation s header with ⟨_ | t, loc⟩
    · dsimp only
      rcases strstrLocation inp c!"invalid syntax (" with ⟨_ | t, loc⟩
      · rfl
      · dsimp only
        rcases strstrLocation t c!"  File \"" with ⟨_ | t, loc⟩ <;> rfl
    · rfl
  · rfl
  · rfl

theorem strstr_at {needle h pre rest : Str} (hf : FirstAt needle h pre rest) (hne : needle ≠ []) (hnul : NoNul needle) :
    strstrLocation h needle = (some (needle ++ rest), locOf pre) := (C28_strstr h needle hne hnul).1 pre rest hf.1 hf.2

theorem startL_named {inp s : Str} (h : Begins inp s) : ∃ loc : Loc, startL inp = .ok (.inr (s, loc)) ∧ Named inp s loc.line ∧
    (¬ (∃ a b, inp = a ++ header ++ b) ∨ loc.column = 0) := by
  have hne : header ≠ [] := by decide
  have hnul : NoNul header := by unfold NoNul; decide
  have ne1 : c!"invalid syntax (" ≠ [] := by decide
  have nu1 : NoNul c!"invalid syntax (" := by unfold NoNul; decide
  have ne2 : c!"  File \"" ≠ [] := by decide
  have nu2 : NoNul c!"  File \"" := by unfold NoNul; decide
  have hd : (header ++ s).drop header.length = s := List.drop_left
  rcases h with ⟨pre, h⟩ | ⟨hno, pre, mid, pre', rest, h1, h2, rfl⟩
  · unfold startL
    by_cases hp : peek inp = '\n'
    · cases inp with
      | nil => exact absurd hp (by decide)
      | cons c inp =>
        have : c = '\n' := hp
        subst this
        cases pre with
        | nil => have := h.1; simp [header] at this
        | cons x pre =>
          have e := h.1
          simp only [List.cons_append, List.cons.injEq] at e
          obtain ⟨rfl, e⟩ := e
          have hf : FirstAt header inp pre s := ⟨e, fun a b h' => by
            have := h.2 ('\n' :: a) b (by rw [h']; simp)
            simpa using this⟩
          refine ⟨⟨(locOf pre).line + 2, 0⟩, ?_, ?_, .inr rfl⟩
          · rw [skipChar_cons (by decide), Out.bind_ok]
            dsimp only
            rw [strstr_at hf hne hnul]
            dsimp only
            rw [hd]
          · have := Named.header _ h
            rw [if_pos hp] at this
            have e : (locOf ('\n' :: pre)).line + 1 = (locOf pre).line + 2 := by
              simp [locOf]; omega
            rw [e] at this
            exact this
    · refine ⟨⟨(locOf pre).line + 2, 0⟩, ?_, ?_, .inr rfl⟩
      · rw [skipChar_not (by decide) hp, Out.bind_ok]
        dsimp only
        rw [strstr_at h hne hnul]
        dsimp only
        rw [hd]
      · have := Named.header _ h
        rwa [if_neg hp] at this
  · refine ⟨locOf pre', ?_, .words pre mid pre' rest hno h1 h2 rfl, .inl hno⟩
    have e := startL_eq inp
    rw [begins_iff.2 (.inr ⟨hno, pre, mid, pre', rest, h1, h2, rfl⟩)] at e
    unfold startL at e ⊢
    obtain ⟨⟨b, s⟩, hs⟩ := skipChar_fine inp (c := '\n') (by decide)
    rw [hs] at e ⊢
    simp only [Out.bind_ok] at e ⊢
    rw [strstr_at h1 ne1 nu1, ] at e ⊢
    dsimp only at e ⊢
    rw [strstr_at h2 ne2 nu2] at e ⊢
    dsimp only at e ⊢
    have hh : (strstrLocation s header).1 = none := by
      refine (strstr_none hne hnul).2 ?_
      rintro ⟨a, b', rfl⟩
      by_cases hp : peek inp = '\n'
      · cases inp with
        | nil => exact absurd hp (by decide)
        | cons c inp =>
          have : c = '\n' := hp
          subst this
          rw [skipChar_cons (by decide)] at hs
          injection hs with hs
          injection hs with _ hs
          exact hno ⟨'\n' :: a, b', by rw [hs]; simp⟩
      · rw [skipChar_not (by decide) hp] at hs
        injection hs with hs
        injection hs with _ hs
        exact hno ⟨a, b', hs⟩
    rcases hx : strstrLocation s header with ⟨_ | t, loc⟩
    · rfl
    · rw [hx] at hh; cases hh

/-- C136, Python: if reading stops, the message names the line that `Named` describes, wherever reading stops. -/
theorem C136_python (inp s u : Str) (fs : List PythonFrame) (hb : Begins inp s) (h : Stops s fs u) :
    ∃ (line column : Int) (message : Str), parseText inp = .ok (.inr (Loc.text ⟨line, column⟩ (some message))) ∧ Named inp s line ∧
      (fs = [] → (∃ a b, inp = a ++ header ++ b) → column = 0) := by
  obtain ⟨hf, hs⟩ := h
  obtain ⟨loc, h1, h2, h3⟩ := startL_named hb
  obtain ⟨loc', m, h4, h5, h6⟩ := framesLoopL_line hf (s.length + 1) loc Loc.init [] (by omega) rfl
  unfold parseText parseL
  rw [h1, Out.bind_ok]
  dsimp only
  rw [h4, Out.bind_ok]
  dsimp only
  by_cases he : fs = []
  · obtain rfl := h6 he
    subst he
    refine ⟨loc'.line, loc'.column, m, rfl, h2, fun _ ho => ?_⟩
    rcases h3 with h3 | h3
    · exact absurd ho h3
    · exact h3
  · rw [if_neg (by simpa using he)]
    obtain ⟨⟨o, v⟩, hv⟩ := parseCharCspan_fine u c!":\n"
    rw [hv]
    cases o with
    | none => exact ⟨loc'.line, loc'.column, _, rfl, h5 ▸ h2, fun h => absurd h he⟩
    | some x =>
      obtain ⟨rfl, h7, h8, -⟩ := parseCspan_iff.1 hv
      cases x with
      | nil => exact absurd rfl h7
      | cons c x =>
        have := h8 c (by simp)
        rcases hs he with h9 | h9 | h9
        · cases h9
        · exact absurd (show c ∈ c!":\n" by rw [show c = ':' from h9]; simp) this
        · exact absurd (show c ∈ c!":\n" by rw [show c = '\n' from h9]; simp) this

theorem parseFrameL_eq (s : Str) (loc : Loc) : (parseFrameL s loc).bind (fun r => .ok (r.1.getRight?, r.2.1)) = parseFrame s := by
  unfold parseFrameL parseFrame
  rcases skipErrorLine s with u | _ | _
  · simp only [Out.bind_ok]
    rw [← frameBodyL_eq u loc]
    rcases frameBodyL u loc with (m | ⟨f, t, l⟩) | _ | _ <;> rfl
  · rfl
  · rfl

theorem framesLoopL_eq : ∀ (fuel : Nat) (s : Str) (loc floc : Loc) (acc : List PythonFrame),
    (framesLoopL fuel s loc floc acc).bind (fun r => .ok (r.1, r.2.1)) = framesLoop fuel s acc
  | 0, _, _, _, _ => rfl
  | fuel + 1, s, loc, floc, acc => by
    rw [framesLoopL, framesLoop, ← parseFrameL_eq s floc]
    rcases parseFrameL s floc with ⟨m | f, t, l⟩ | _ | _
    · rfl
    · exact framesLoopL_eq fuel t _ l (f :: acc)
    · rfl
    · rfl

theorem parseL_eq (inp : Str) : (parseL inp).bind (fun r => .ok r.getRight?) = parse inp := by
  unfold parseL parse
  rw [← startL_eq inp]
  rcases startL inp with (e | ⟨s, loc⟩) | _ | _
  · rfl
  · change Out.bind _ _ = Out.bind (Out.ok _) _
    rw [show ∀ (x : Option Str) (g : Option Str → Out (Option (PythonTrace × Str))), Out.bind (.ok x) g = g x from fun _ _ => rfl]
    simp only [Out.bind_ok, Sum.getRight?_inr, Option.map_some]
    rw [← framesLoopL_eq (s.length + 1) s loc Loc.init []]
    rcases framesLoopL (s.length + 1) s loc Loc.init [] with ⟨fs, u, l, m⟩ | _ | _
    · rw [show (Out.ok (fs, u, l, m)).bind (fun r => Out.ok (r.1, r.2.1)) = Out.ok (fs, u) from rfl]
      simp only [Out.bind_ok]
      split
      · rfl
      · rcases parseCharCspan u c!":\n" with ⟨_ | name, v⟩ | _ | _ <;> rfl
    · rfl
    · rfl
  · rfl
  · rfl

/-- C136, Python: texts are read as without locations, and every text that is rejected has no place where frames begin, or stops
as in `C136_python`. -/
theorem C136_python_read (inp : Str) :
    (∀ tr, parseText inp = .ok (.inl tr) ↔ ∃ rest, parse inp = .ok (some (tr, rest))) ∧
    ∀ text, parseText inp = .ok (.inr text) → (¬ ∃ s, Begins inp s) ∨ ∃ s fs u, Begins inp s ∧ Stops s fs u := by
  have e := parseL_eq inp
  refine ⟨fun tr => ?_, fun text h => ?_⟩
  · unfold parseText
    rw [← e]
    rcases parseL inp with (⟨l, m⟩ | ⟨t, r⟩) | _ | _
    · constructor
      · intro h; cases h
      · rintro ⟨r, h⟩; cases h
    · constructor
      · intro h; cases h; exact ⟨r, rfl⟩
      · rintro ⟨r', h⟩; cases h; rfl
    · constructor
      · intro h; cases h
      · rintro ⟨r, h⟩; cases h
    · constructor
      · intro h; cases h
      · rintro ⟨r, h⟩; cases h
  · by_cases hb : ∃ s, Begins inp s
    · obtain ⟨s, hb⟩ := hb
      refine .inr ⟨s, ?_⟩
      have hp : parse inp = .ok none := by
        unfold parseText at h
        rw [← e]
        generalize parseL inp = y at h
        rcases y with (⟨l, m⟩ | ⟨t, r⟩) | _ | _
        · rfl
        · cases h
        · cases h
        · cases h
      unfold parse at hp
      rw [begins_iff.2 hb, Out.bind_ok] at hp
      dsimp only at hp
      cases hl : framesLoop (s.length + 1) s [] with
      | abort => rw [hl] at hp; cases hp
      | ub => rw [hl] at hp; cases hp
      | ok x =>
        obtain ⟨r, u⟩ := x
        rw [hl, Out.bind_ok] at hp
        dsimp only at hp
        obtain ⟨fs, h1, rfl⟩ := (framesLoop_iff _ s [] r u (by omega)).1 hl
        refine ⟨fs, u, hb, h1, fun hne => ?_⟩
        rw [if_neg (by simpa using hne)] at hp
        cases u with
        | nil => exact .inl rfl
        | cons c u =>
          by_contra hc
          push Not at hc
          obtain ⟨-, hc1, hc2⟩ := hc
          obtain ⟨⟨o, v⟩, hv⟩ := parseCharCspan_fine (c :: u) c!":\n"
          rw [hv, Out.bind_ok] at hp
          cases o with
          | some x => cases hp
          | none =>
            rw [parseCharCspan_eq] at hv
            have h1 : c ≠ ':' := hc1
            have h2 : c ≠ '\n' := hc2
            simp [h1, h2] at hv
    · exact .inl hb

/-- A text that does not begin with an empty line, and whose first frame cannot be read: the line after the place where reading stops is named. -/
theorem C136_not_python (inp pre s u : Str) (hn : peek inp ≠ '\n') (hf : FirstAt header inp pre s) (hu : AfterMarks s u)
    (h : ¬ ∃ f t, FrameText s f t) :
    ∃ message : Str, parseText inp = .ok (.inr (Loc.text ⟨(locOf (pre ++ header)).line + 1, 0⟩ (some message))) := by
  obtain ⟨line, column, m, h1, h2, h3⟩ := C136_python inp s u [] (.inl ⟨pre, hf⟩) ⟨.done s u hu h, fun h => absurd rfl h⟩
  have hc := h3 rfl ⟨pre, s, hf.1⟩
  subst hc
  cases h2 with
  | header pre' hf' =>
    obtain ⟨rfl, -⟩ := hf.unique hf'
    rw [if_neg hn] at h1
    refine ⟨m, ?_⟩
    rw [h1]
    have : (locOf (pre ++ header)).line + 1 = (locOf pre).line + 2 := by simp [locOf, header]; omega
    rw [this]
  | words _ _ _ _ hno => exact absurd ⟨pre, s, hf.1⟩ hno

theorem text_of {inp : Str} {l : Loc} {m : Str} (h : parseL inp = .ok (.inl (l, m))) : parseText inp = .ok (.inr (l.text (some m))) := by
  unfold parseText
  rw [h]
  rfl

set_option maxRecDepth 20000

example : ∃ message : Str, parseText c!"Traceback (most recent call last):\n  Fil\nE: x\n" = .ok (.inr (Loc.text ⟨3, 0⟩ (some message))) :=
  C136_not_python c!"Traceback (most recent call last):\n  Fil\nE: x\n" [] c!"  Fil\nE: x\n" c!"  Fil\nE: x\n" (by decide) ⟨rfl, by simp⟩
    (skipErrorLine_iff.1 (by decide +kernel)) (by
      rintro ⟨f, t, h⟩
      have := (C52_frame _ f t).2 h
      rw [show parseFrame c!"  Fil\nE: x\n" = .ok (none, c!"  Fil\nE: x\n") by decide +kernel] at this
      cases this)

/-- Wherever the name of the exception is missing, the same line is named: here reading stops in line 6. -/
theorem C136_not_python_name : ∃ done rest column message, parseText (done ++ rest) = .ok (.inr (Loc.text ⟨3, column⟩ (some message))) ∧
    (∃ s fs, Begins (done ++ rest) s ∧ Stops s fs rest) ∧ (locOf done).line = 6 := by
  refine ⟨c!"Traceback (most recent call last):\n  File \"a\", line 1, in f\n    g()\n  File \"a\", line 2, in g\n    h()\n", c!": x\n", 72,
    c!"Unable to find the ':\\n' characters identifying the end of exception name.", text_of (by decide +kernel),
    ⟨c!"  File \"a\", line 1, in f\n    g()\n  File \"a\", line 2, in g\n    h()\n: x\n", _, .inl ⟨[], ⟨rfl, by simp⟩⟩,
      .more _ _ _ _ _ ((C52_frame _ ⟨false, some c!"a", 1, false, some c!"f", some c!"g()"⟩ c!"  File \"a\", line 2, in g\n    h()\n: x\n").1 (by decide +kernel))
        (.more _ _ _ _ _ ((C52_frame _ ⟨false, some c!"a", 2, false, some c!"g", some c!"h()"⟩ c!": x\n").1 (by decide +kernel))
          (.done _ _ (skipErrorLine_iff.1 (by decide +kernel)) ?_)), fun _ => .inr (.inl rfl)⟩, by decide +kernel⟩
  rintro ⟨f, t, h⟩
  have := (C52_frame _ f t).2 h
  rw [show parseFrame c!": x\n" = .ok (none, c!": x\n") by decide +kernel] at this
  cases this

/-- A text without header: the line is counted from the words. Here reading stops in line 4. -/
example : parseText c!"\n\ninvalid syntax (a, line 1)\n  File \"a\", line x\n" =
    .ok (.inr (Loc.text ⟨2, 0⟩ (some c!"Line number not found."))) := text_of (by decide +kernel)

example : parseText c!"no traceback" = .ok (.inr (Loc.text ⟨1, 0⟩ (some c!"Traceback header not found."))) := text_of (by decide +kernel)

end Satyr.Text.Python
