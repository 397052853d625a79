import Verif.Text.JavaLines
import Verif.Text.JavaLocModel
/-!
# C136: the place of an error in a Java stack trace
-/
namespace Satyr.Text.Java
open Satyr.CStr Satyr.Frames
open Satyr.Text.Js (LineEnd)

/-! ## Where reading stops -/

/-- Reading calls from `s` stops at `u`: there is a line, but no `at` after it. -/
inductive CallsStop : Str → Str → Prop
  | here {s : Str} : s ≠ [] → ¬ (EndMark (skipWs s) ∨ c!"Caused by: " <+: skipWs s) → (¬ ∃ a b, skipWs s = a ++ c!"at" ++ b) →
      CallsStop s (skipWs s)
  | call {s t u : Str} {f : JavaFrame} : ¬ (EndMark (skipWs s) ∨ c!"Caused by: " <+: skipWs s) → CallText (skipWs s) f t →
      CallsStop t u → CallsStop s u

/-- Reading an exception and its causes from `s` stops at `u`. -/
inductive ChainStop : Str → Str → Str → Prop
  | name {s : Str} : (skipWs s = [] ∨ peek (skipWs s) = ':') → ChainStop s (skipWs s) c!"Expected exception name"
  | calls {s r u : Str} {e : JavaFrame} : HeadText s e r → CallsStop r u → ChainStop s u c!"Frame expected"
  | cause {s r d u m : Str} {e : JavaFrame} {fs : List JavaFrame} : HeadText s e r → CallsText r fs (c!"Caused by: " ++ d) →
      ChainStop d u m → ChainStop s u m
  | moreCause {s r c d u m : Str} {e : JavaFrame} {fs : List JavaFrame} : HeadText s e r → CallsText r fs c → EndMark c →
      AfterCalls c (c!"Caused by: " ++ d) → ChainStop d u m → ChainStop s u m

/-- Reading a stack trace from `s` stops at `u`, for the reason `m`. -/
inductive Stops : Str → Str → Str → Prop
  | thread {a u : Str} : '"' ∉ a → '\n' ∉ a → LineEnd u → Stops (c!"Exception in thread \"" ++ (a ++ u)) u c!"\"Thread\" name end expected"
  | named {n s u m : Str} : '"' ∉ n → '\n' ∉ n → ChainStop s u m → Stops (c!"Exception in thread \"" ++ (n ++ '"' :: s)) u m
  | plain {s u m : Str} : ¬ c!"Exception in thread \"" <+: s → ChainStop s u m → Stops s u m

/-! ## Texts whose lines are counted right -/

/-- What is skipped as white space begins after such a text. -/
def Edge (d : Str) : Prop := d = [] ∨ (∃ p c, d = p ++ [c] ∧ (isSpace c = true ∨ c = ':' ∨ c = '"')) ∨ ∃ p, d = p ++ c!"at"

/-- No line is empty or ends with white space, a colon, a quotation mark or `at`. -/
def Tidy (inp : Str) : Prop := ∀ a b, inp = a ++ '\n' :: b → ¬ Edge a

/-- `l` is the location of `s` after `d`, or on a line before it. -/
structure At (inp d s : Str) (l : Loc) : Prop where
  split : inp = d ++ s
  le : l.line ≤ (locOf d).line
  eq : Tidy inp → l = locOf d

theorem right_line (l : Loc) (n : Int) : (right l n).line = l.line := by simp [right, Loc.add]

theorem locOf_plain (d : Str) {a : Str} (h : '\n' ∉ a) : locOf (d ++ a) = right (locOf d) a.length := by
  have hl : locOf a = ⟨1, a.length⟩ := by
    unfold locOf
    rw [List.count_eq_zero.2 h, List.takeWhile_eq_self_iff.2]
    · simp
    · intro c hc; simp; rintro rfl; exact h (by simpa using hc)
  rw [← C28_add, hl]
  simp [right, Loc.add]

theorem locOf_line (d a : Str) : (locOf (d ++ a)).line = (locOf d).line + a.count '\n' := by simp [locOf]; omega

theorem locOf_nl (d : Str) : locOf (d ++ ['\n']) = ⟨(locOf d).line + 1, 0⟩ := by simp [locOf]; omega

theorem At.plain {inp d a s : Str} {l : Loc} (h : At inp d (a ++ s) l) (ha : '\n' ∉ a) : At inp (d ++ a) s (right l a.length) := by
  refine ⟨by rw [h.split]; simp, ?_, fun ht => ?_⟩
  · rw [right_line, locOf_line]; have := h.le; omega
  · rw [h.eq ht, locOf_plain d ha]

/-- The next line. -/
theorem At.line {inp d a s : Str} {l : Loc} (h : At inp d (a ++ '\n' :: s) l) (ha : '\n' ∉ a) : At inp (d ++ a ++ ['\n']) s ⟨l.line + 1, 0⟩ := by
  have h1 := h.plain ha
  refine ⟨by rw [h.split]; simp, ?_, fun ht => ?_⟩
  · rw [locOf_nl]; have := h1.le; rw [right_line] at this; dsimp only; omega
  · rw [locOf_nl, ← h1.eq ht, right_line]

theorem edge_nl (d : Str) : Edge (d ++ ['\n']) := .inr (.inl ⟨d, '\n', rfl, .inl (by decide)⟩)

theorem Tidy.ws {inp d ws s : Str} (ht : Tidy inp) (e : inp = d ++ (ws ++ s)) (hw : ∀ c ∈ ws, isSpace c = true) (hd : Edge d) : '\n' ∉ ws := by
  intro hm
  obtain ⟨w1, w2, rfl, h1⟩ := first_split hm
  refine ht (d ++ w1) (w2 ++ s) (by rw [e]; simp) ?_
  rcases List.eq_nil_or_concat w1 with rfl | ⟨p, c, rfl⟩
  · rwa [List.append_nil]
  · exact .inr (.inl ⟨d ++ p, c, by simp, .inl (hw c (by simp))⟩)

theorem At.ws {inp d ws s : Str} {l : Loc} (h : At inp d (ws ++ s) l) (hw : ∀ c ∈ ws, isSpace c = true) (hd : Edge d) :
    At inp (d ++ ws) s (right l ws.length) := by
  refine ⟨by rw [h.split]; simp, ?_, fun ht => ?_⟩
  · rw [right_line, locOf_line]; have := h.le; omega
  · rw [h.eq ht, locOf_plain d (ht.ws h.split hw hd)]

theorem wsL_eq {ws s : Str} (hw : ∀ c ∈ ws, isSpace c = true) (hs : isSpace (peek s) = false) (l : Loc) : wsL (ws ++ s) l = right l ws.length := by
  unfold wsL
  rw [skipWs_of hw hs]
  simp

theorem At.skipWs {inp d s : Str} {l : Loc} (h : At inp d s l) (hd : Edge d) : ∃ d', At inp d' (skipWs s) (wsL s l) := by
  obtain ⟨ws, h1, h2, h3⟩ := skipWs_split s
  refine ⟨d ++ ws, ?_⟩
  rw [h1] at h
  have := h.ws h2 hd
  rw [h1, wsL_eq h2 h3, skipWs_of h2 h3]
  exact this

/-! ## The functions with locations read the same -/

theorem pathEndL_of {r q : Option Str × Str} {l : Loc} (h : pathEnd r = .ok q) :
    ∃ l', pathEndL (r.1, r.2, l) = .ok (q.1, q.2, l') ∧ l'.line = l.line := by
  unfold pathEnd at h
  unfold pathEndL
  dsimp only
  split at h
  · next hc =>
    rw [if_pos hc]
    obtain ⟨⟨n, c⟩, e⟩ := skipCharCspan_fine r.2 c!"]\n"
    rw [e, Out.bind_ok] at h ⊢
    cases h
    exact ⟨_, rfl, right_line _ _⟩
  · next hc =>
    rw [if_neg hc]
    cases h
    exact ⟨_, rfl, rfl⟩

theorem pathL_of {stop mark cursor : Str} {q : Option Str × Str} {l : Loc} (h : path stop mark cursor = .ok q) :
    ∃ l', pathL stop mark cursor l = .ok (q.1, q.2, l') ∧ l'.line = l.line := by
  unfold path filePrefix at h
  unfold pathL filePrefixL
  split at h
  · next hc =>
    rw [if_pos hc]
    cases cursor with
    | nil => cases h
    | cons c cursor =>
      simp only [advance, Out.bind_ok] at h ⊢
      obtain ⟨⟨n, t⟩, e⟩ := skipCharCspan_fine cursor stop
      rw [e, Out.bind_ok] at h ⊢
      cases h
      exact ⟨_, rfl, by rw [right_line, right_line]⟩
  · next hc =>
    rw [if_neg hc]
    simp only [Out.bind_ok] at h ⊢
    obtain ⟨⟨n, t⟩, e⟩ := skipCharCspan_fine mark stop
    rw [e, Out.bind_ok] at h ⊢
    cases h
    exact ⟨_, rfl, by rw [right_line, right_line]⟩

theorem frameUrlL_of {s : Str} {q : Option Str × Str} {l : Loc} (h : frameUrl s = .ok q) :
    ∃ l', frameUrlL s l = .ok (q.1, q.2, l') ∧ l'.line = l.line := by
  unfold frameUrl at h
  unfold frameUrlL
  obtain ⟨⟨n, s⟩, e⟩ := skipCharCspan_fine s c!"[\n"
  rw [e, Out.bind_ok] at h ⊢
  dsimp only at h ⊢
  split at h
  · next hc =>
    rw [if_pos hc]
    cases h
    exact ⟨_, rfl, right_line _ _⟩
  · next hc =>
    rw [if_neg hc]
    cases s with
    | nil => cases h
    | cons c s =>
      simp only [advance, Out.bind_ok] at h ⊢
      obtain ⟨⟨n', t⟩, e⟩ := skipCharCspan_fine s c!":\n"
      rw [e, Out.bind_ok] at h ⊢
      dsimp only at h ⊢
      split at h
      · next hc =>
        rw [if_pos hc]
        obtain ⟨l', h1, h2⟩ := pathEndL_of (l := right (right (right l n) 1) n') h
        exact ⟨l', h1, by rw [h2, right_line, right_line, right_line]⟩
      · next hc =>
        rw [if_neg hc]
        unfold jarPrefix at h
        unfold jarPrefixL
        have rest : ∀ {stop mark cursor : Str} {q : Option Str × Str} {l0 : Loc}, (path stop mark cursor >>= fun r => pathEnd r) = .ok q →
            l0.line = l.line → ∃ l', (pathL stop mark cursor l0 >>= fun r => pathEndL r) = .ok (q.1, q.2, l') ∧ l'.line = l.line := by
          intro stop mark cursor q l0 h hl
          obtain ⟨r, h1, h2⟩ := bind_ok_iff.1 h
          obtain ⟨l1, k1, k2⟩ := pathL_of (l := l0) h1
          obtain ⟨l2, m1, m2⟩ := pathEndL_of (l := l1) h2
          exact ⟨l2, by rw [k1, Out.bind_ok]; exact m1, by rw [m2, k2, hl]⟩
        split at h
        · next hj =>
          rw [if_pos hj]
          cases t with
          | nil => cases h
          | cons c t =>
            simp only [advance, Out.bind_ok] at h ⊢
            obtain ⟨⟨n'', t'⟩, e⟩ := skipCharCspan_fine t c!":\n"
            rw [e, Out.bind_ok] at h ⊢
            dsimp only at h ⊢
            split at h
            · next hk =>
              rw [if_pos hk]
              cases h
              exact ⟨_, rfl, by simp only [right_line]⟩
            · next hk =>
              rw [if_neg hk]
              exact rest h (by simp only [right_line])
        · next hj =>
          rw [if_neg hj]
          exact rest h (by simp only [right_line])

theorem lineNumberL_of {s : Str} {q : Nat × Str} {l : Loc} (h : lineNumber s = .ok q) :
    ∃ l', lineNumberL s l = .ok (q.1, q.2, l') ∧ l'.line = l.line := by
  unfold lineNumber at h
  unfold lineNumberL
  split at h
  · next hc =>
    rw [if_pos hc]
    cases s with
    | nil => cases h
    | cons c s =>
      simp only [advance, Out.bind_ok] at h ⊢
      obtain ⟨⟨n, v, t⟩, e⟩ := parseUint32_fine s
      rw [e, Out.bind_ok] at h ⊢
      cases h
      exact ⟨_, rfl, by simp only [right_line]⟩
  · next hc =>
    rw [if_neg hc]
    cases h
    exact ⟨_, rfl, rfl⟩

theorem sourceL_of {s : Str} {q : Bool × Option Str × Nat × Str} {l : Loc} (h : source s = .ok q) :
    ∃ l', sourceL s l = .ok (q.1, q.2.1, q.2.2.1, q.2.2.2, l') ∧ l'.line = l.line := by
  unfold source at h
  unfold sourceL
  split at h
  · next hc =>
    rw [if_pos hc]
    cases h
    exact ⟨_, rfl, rfl⟩
  · next hc =>
    rw [if_neg hc]
    cases s with
    | nil => cases h
    | cons c s =>
      simp only [advance, Out.bind_ok] at h ⊢
      obtain ⟨⟨n, t⟩, e⟩ := skipCharCspan_fine s c!":)\n"
      rw [e, Out.bind_ok] at h ⊢
      dsimp only at h ⊢
      obtain ⟨r, h1, h2⟩ := bind_ok_iff.1 h
      obtain ⟨l1, k1, k2⟩ := lineNumberL_of (l := right (right l 1) n) h1
      rw [k1, Out.bind_ok]
      cases h2
      exact ⟨_, rfl, by rw [k2]; simp only [right_line]⟩

theorem lineEndL_of {s r : Str} {l : Loc} (h : lineEnd s = .ok r) : ∃ l', lineEndL s l = .ok (r, l') ∧ (r ≠ [] → l' = ⟨l.line + 1, 0⟩) := by
  unfold lineEnd at h
  unfold lineEndL
  dsimp only at h ⊢
  split at h
  · next hc =>
    rw [if_pos hc, h, Out.bind_ok]
    exact ⟨_, rfl, fun _ => by simp [Loc.add]⟩
  · next hc =>
    rw [if_neg hc]
    cases h
    refine ⟨_, rfl, fun hr => absurd ?_ hr⟩
    obtain ⟨a, t, rfl, h1, h2⟩ := line_split s
    rcases h2 with rfl | h2
    · rw [List.append_nil, strchrnulI_all h1]
      simp
    · cases t with
      | nil => cases h2
      | cons c t =>
        obtain rfl : c = '\n' := h2
        rw [strchrnulI_append h1, List.drop_left] at hc
        exact absurd rfl hc

theorem strstr_at {needle h pre rest : Str} (hf : FirstAt needle h pre rest) (hne : needle ≠ []) (hnul : NoNul needle) :
    strstrLocation h needle = (some (needle ++ rest), locOf pre) := (C28_strstr h needle hne hnul).1 pre rest hf.1 hf.2

theorem end_cons {t u : Str} (h : LineEnd t) (e : u = t.drop 1) (hu : u ≠ []) : t = '\n' :: u := by
  rcases h with rfl | h
  · exact absurd e hu
  · cases t with
    | nil => cases h
    | cons c t =>
      obtain rfl : c = '\n' := h
      rw [e]
      rfl

/-- A call moves to the next line. -/
theorem parseFrameL_of {inp d s u : Str} {f : JavaFrame} {l : Loc} (h : CallText s f u) (ha : At inp d s l) :
    ∃ l', parseFrameL s l = .ok (.inr (f, u, l')) ∧ (u ≠ [] → ∃ d', At inp d' u l' ∧ Edge d') := by
  have hp := (C70_exact_frame s f u).2 h
  obtain ⟨pre, ws, x, t, h1, h2, h3, h4, h5, -, h6⟩ := h
  have hs := strstr_at h1 (by decide) (by simp [NoNul])
  unfold parseFrame at hp
  unfold parseFrameL
  rw [hs] at hp ⊢
  dsimp only at hp ⊢
  have hd : (c!"at" ++ (ws ++ (x ++ t))).drop 2 = ws ++ (x ++ t) := rfl
  rw [hd, skipWs_of h2 h3] at hp ⊢
  obtain ⟨⟨n, s1⟩, e1⟩ := skipCharCspan_fine (x ++ t) c!"(\n"
  rw [e1, Out.bind_ok] at hp ⊢
  dsimp only at hp ⊢
  obtain ⟨⟨native, file, line, s2⟩, e2, hp⟩ := bind_ok_iff.1 hp
  obtain ⟨l2, e3, e4⟩ := sourceL_of (l := right (wsL (ws ++ (x ++ t)) (l.add (locOf pre).line ((locOf pre).column + 2))) n) e2
  rw [e3, Out.bind_ok]
  dsimp only at hp ⊢
  obtain ⟨⟨p, s3⟩, e5, hp⟩ := bind_ok_iff.1 hp
  obtain ⟨l3, e6, e7⟩ := frameUrlL_of (l := l2) e5
  rw [e6, Out.bind_ok]
  dsimp only at hp ⊢
  obtain ⟨r, e8, hp⟩ := bind_ok_iff.1 hp
  obtain ⟨l4, e9, e10⟩ := lineEndL_of (l := l3) e8
  rw [e9, Out.bind_ok]
  cases hp
  refine ⟨l4, rfl, fun hu => ?_⟩
  obtain rfl := end_cons h5 h6 hu
  rw [e10 hu]
  have hl : l3.line = l.line + pre.count '\n' := by
    rw [e7, e4, right_line, wsL_eq h2 h3, right_line]
    unfold Loc.add locOf
    dsimp only
    split
    · dsimp only; omega
    · dsimp only; omega
  have hsplit : inp = d ++ pre ++ c!"at" ++ (ws ++ (x ++ '\n' :: u)) := by rw [ha.split, h1.1]; simp
  have hc : (locOf (d ++ pre ++ c!"at" ++ ws ++ x ++ ['\n'])).line = (locOf d).line + pre.count '\n' + ws.count '\n' + 1 := by
    rw [locOf_line, locOf_line, locOf_line, locOf_line, locOf_line, List.count_eq_zero.2 h4]
    simp
  refine ⟨d ++ pre ++ c!"at" ++ ws ++ x ++ ['\n'], ⟨by rw [hsplit]; simp, ?_, fun ht => ?_⟩, edge_nl _⟩
  · rw [hc]
    have := ha.le
    dsimp only
    omega
  · have hw := ht.ws hsplit h2 (.inr (.inr ⟨_, rfl⟩))
    rw [List.count_eq_zero.2 hw] at hc
    have hcol : (locOf (d ++ pre ++ c!"at" ++ ws ++ x ++ ['\n'])).column = 0 := by rw [locOf_nl]
    have e := ha.eq ht
    have : (⟨l3.line + 1, 0⟩ : Loc) = ⟨(locOf (d ++ pre ++ c!"at" ++ ws ++ x ++ ['\n'])).line, (locOf (d ++ pre ++ c!"at" ++ ws ++ x ++ ['\n'])).column⟩ := by
      rw [hc, hcol, hl, e]
      simp
    exact this

theorem parseFrameL_stop {s : Str} (h : ¬ ∃ a b, s = a ++ c!"at" ++ b) (l : Loc) : parseFrameL s l = .ok (.inl (l, c!"Frame expected")) := by
  unfold parseFrameL
  rcases e : strstrLocation s c!"at" with ⟨_ | c, x⟩
  · rfl
  · have := (strstr_none (h := s) (needle := c!"at") (by decide) (by simp [NoNul])).2 h
    rw [e] at this
    cases this

theorem startsWith_pre (s w : Str) : startsWith s w = true ↔ w <+: s := by unfold startsWith; rw [List.isPrefixOf_iff_prefix]

theorem some_frame {s c : Str} (h : (strstrLocation s c!"at").1 = some c) : ∃ f u, parseFrame s = .ok (some (f, u)) ∧ CallText s f u := by
  obtain ⟨r, hr, -⟩ := parseFrame_yields s
  cases r with
  | some x => exact ⟨x.1, x.2, hr, (C70_exact_frame _ _ _).1 hr⟩
  | none =>
    unfold parseFrame at hr
    rw [h] at hr
    dsimp only at hr
    obtain ⟨_, _, hr⟩ := bind_ok_iff.1 hr
    obtain ⟨_, _, hr⟩ := bind_ok_iff.1 hr
    obtain ⟨_, _, hr⟩ := bind_ok_iff.1 hr
    obtain ⟨_, _, hr⟩ := bind_ok_iff.1 hr
    cases hr

/-- The calls: how they end, or where reading stops. -/
theorem calls_cases (inp : Str) : ∀ (fuel : Nat) (s : Str) (l : Loc) (acc : List JavaFrame), s.length < fuel → NoNul s →
    (s ≠ [] → ∃ d, At inp d s l ∧ Edge d) →
    (∃ fs en l', framesLoopL fuel s l acc = .ok (.inr (acc ++ fs, en, l')) ∧ CallsText s fs en.rest ∧
      (match en with | .text u => u = [] | .done u => EndMark u | .cause u => c!"Caused by: " <+: u) ∧ (en.rest ≠ [] → ∃ d, At inp d en.rest l')) ∨
    ∃ u l', framesLoopL fuel s l acc = .ok (.inl (l', c!"Frame expected")) ∧ CallsStop s u ∧ ∃ d, At inp d u l'
  | 0, s, l, acc, h, _, _ => by omega
  | fuel + 1, s, l, acc, h, hz, ha => by
    rw [framesLoopL]
    by_cases hs : s = []
    · subst hs
      exact .inl ⟨[], .text [], l, by rw [List.append_nil]; rfl, .empty, rfl, fun h => absurd rfl h⟩
    have hp : peek s ≠ '\x00' := by
      cases s with
      | nil => exact absurd rfl hs
      | cons c s => rintro e; exact hz (by rw [show c = '\x00' from e]; simp)
    rw [if_neg hp]
    dsimp only
    obtain ⟨d0, ha, hd⟩ := ha hs
    obtain ⟨d, ha⟩ := ha.skipWs hd
    by_cases h1 : EndMark (skipWs s)
    · rw [if_pos (by rw [startsWith_pre, startsWith_pre]; exact h1)]
      exact .inl ⟨[], .done (skipWs s), _, by rw [List.append_nil], .mark hs (.inl h1), h1, fun _ => ⟨d, ha⟩⟩
    · rw [if_neg (by rw [startsWith_pre, startsWith_pre]; exact h1)]
      by_cases h2 : c!"Caused by: " <+: skipWs s
      · rw [if_pos ((startsWith_pre _ _).2 h2)]
        exact .inl ⟨[], .cause (skipWs s), _, by rw [List.append_nil], .mark hs (.inr h2), h2, fun _ => ⟨d, ha⟩⟩
      · rw [if_neg (by rw [startsWith_pre]; exact h2)]
        have hm : ¬ (EndMark (skipWs s) ∨ c!"Caused by: " <+: skipWs s) := by rintro (h | h); exacts [h1 h, h2 h]
        by_cases hat : ∃ a b, skipWs s = a ++ c!"at" ++ b
        · obtain ⟨r, hr, hlen⟩ := parseFrame_yields (skipWs s)
          cases r with
          | none =>
            have : (strstrLocation (skipWs s) c!"at").1 = none := by
              cases e : (strstrLocation (skipWs s) c!"at").1 with
              | none => rfl
              | some c =>
                obtain ⟨f, u, k, -⟩ := some_frame e
                rw [hr] at k; cases k
            exact absurd hat ((strstr_none (by decide) (by simp [NoNul])).1 this)
          | some x =>
            obtain ⟨f, u⟩ := x
            have hc := (C70_exact_frame _ _ _).1 hr
            have hl := hlen _ rfl
            have hw := skipWs_len s
            dsimp only at hl ⊢
            obtain ⟨l', e1, e2⟩ := parseFrameL_of hc ha
            rw [e1, Out.bind_ok]
            dsimp only
            rcases calls_cases inp fuel u l' (acc ++ [f]) (by omega) (noNul_suffix (noNul_suffix hz (skipWs_suffix s)) hc.suffix) e2 with
              ⟨fs, en, l'', k1, k2, k3, k4⟩ | ⟨v, l'', k1, k2, k3⟩
            · exact .inl ⟨f :: fs, en, l'', by rw [k1]; simp, .call hm hc k2, k3, k4⟩
            · exact .inr ⟨v, l'', k1, .call hm hc k2, k3⟩
        · rw [parseFrameL_stop hat, Out.bind_ok]
          exact .inr ⟨_, _, rfl, .here hs hm hat, d, ha⟩

theorem nextLineL {inp d s : Str} {l : Loc} (h : At inp d s l) :
    ∃ b l', skipToNextLine s l = .ok (b, afterLine s, l') ∧ (afterLine s ≠ [] → ∃ d', At inp d' (afterLine s) l' ∧ Edge d') := by
  obtain ⟨b, l', e⟩ := nextLine_eq s l
  refine ⟨b, l', e, fun hne => ?_⟩
  obtain ⟨a, t, rfl, h1, h2⟩ := line_split s
  unfold skipToNextLine at e
  rw [skipCspan_append (notin' h1) (h2.imp id fun h => by simp [h]), Out.bind_ok] at e
  dsimp only at e
  rcases h2 with rfl | h2
  · rw [if_neg (by decide)] at e
    injection e with e
    injection e with _ e
    injection e with e _
    exact absurd e.symm hne
  · rw [if_pos h2] at e
    cases t with
    | nil => cases h2
    | cons c t =>
      obtain rfl : c = '\n' := h2
      simp only [advance, Out.bind_ok] at e
      injection e with e
      injection e with _ e
      injection e with e e'
      rw [← e, ← e']
      exact ⟨_, h.line h1, edge_nl _⟩

theorem unindented_cases (inp : Str) : ∀ (fuel : Nat) (s : Str) (l : Loc), s.length < fuel → (s ≠ [] → ∃ d, At inp d s l ∧ Edge d) →
    ∃ r l', skipIndentedL fuel s l = .ok (r, l') ∧ Unindented s r ∧ (r ≠ [] → ∃ d, At inp d r l')
  | 0, s, l, h, _ => by omega
  | fuel + 1, s, l, h, ha => by
    rw [skipIndentedL]
    cases hs : isSpace (peek s) with
    | false => exact ⟨s, l, rfl, .stop hs, fun h => (ha h).imp fun _ k => k.1⟩
    | true =>
      rw [if_pos rfl]
      have hne : s ≠ [] := by rintro rfl; exact absurd hs (by decide)
      obtain ⟨d, ha, -⟩ := ha hne
      obtain ⟨b, x, e, hx⟩ := nextLineL ha
      rw [e, Out.bind_ok]
      obtain ⟨r, l', k1, k2, k3⟩ := unindented_cases inp fuel (afterLine s) x (by have := afterLine_len hne; omega) hx
      exact ⟨r, l', k1, .line hs k2, k3⟩

theorem after_cases {inp d c : Str} {l : Loc} (ha : At inp d c l) : ∃ x l', AfterCalls c x ∧
    causedByL (.done c) l = .ok (if c!"Caused by: " <+: x then .inr (x.drop 11, right l' 11) else .inl x) ∧ (x ≠ [] → ∃ d', At inp d' x l') := by
  obtain ⟨b, l1, e, h1⟩ := nextLineL ha
  have h2 : skipWs (afterLine c) ≠ [] → ∃ d', At inp d' (skipWs (afterLine c)) (wsL (afterLine c) l1) := by
    intro hne
    have : afterLine c ≠ [] := by intro h; rw [h] at hne; exact hne rfl
    obtain ⟨d', k1, k2⟩ := h1 this
    exact k1.skipWs k2
  have hs : ∃ x l', AfterCalls c x ∧ skipSuppressedL (skipWs (afterLine c)) (wsL (afterLine c) l1) = .ok (x, l') ∧ (x ≠ [] → ∃ d', At inp d' x l') := by
    unfold skipSuppressedL
    by_cases h : c!"Suppressed: " <+: skipWs (afterLine c)
    · rw [if_pos ((startsWith_pre _ _).2 h)]
      have hne : skipWs (afterLine c) ≠ [] := by intro e; rw [e] at h; simp at h
      obtain ⟨d', h3⟩ := h2 hne
      obtain ⟨b', l2, e', h4⟩ := nextLineL h3
      rw [e', Out.bind_ok]
      obtain ⟨x, l', k1, k2, k3⟩ := unindented_cases inp _ (afterLine (skipWs (afterLine c))) l2 (Nat.lt_succ_self _) h4
      exact ⟨x, l', .inr ⟨h, k2⟩, k1, k3⟩
    · rw [if_neg (by rw [startsWith_pre]; exact h)]
      exact ⟨_, _, .inl ⟨h, rfl⟩, rfl, h2⟩
  obtain ⟨x, l', h3, h4, h5⟩ := hs
  refine ⟨x, l', h3, ?_, h5⟩
  simp only [causedByL]
  rw [e, Out.bind_ok]
  dsimp only
  rw [h4, Out.bind_ok]
  by_cases h : c!"Caused by: " <+: x
  · rw [if_pos ((startsWith_pre _ _).2 h), if_pos h]
  · rw [if_neg (by rw [startsWith_pre]; exact h), if_neg h]

theorem messageL_cases {inp d x : Str} {l : Loc} (ha : At inp d x l) :
    ∃ m t l' d', messageL x l = .ok (m, t, l') ∧ LineEnd t ∧ MessageText x m (t.drop 1) ∧ At inp d' t l' := by
  unfold messageL
  by_cases hc : peek x = ':'
  · rw [if_pos hc]
    cases x with
    | nil => cases hc
    | cons c x =>
      cases hc
      simp only [advance, Out.bind_ok]
      obtain ⟨ws, h1, h2, h3⟩ := skipWs_split x
      obtain ⟨a, t, h4, h5, h6⟩ := line_split (skipWs x)
      rw [h4, skipCspan_append (notin' h5) (h6.imp id fun h => by simp [h]), Out.bind_ok]
      dsimp only
      rw [strndup, List.take_left]
      have ha1 : At inp (d ++ c!":") x (right l 1) := ha.plain (a := c!":") (by decide)
      have hw : wsL x (right l 1) = right (right l 1) ws.length := by
        have := wsL_eq h2 h3 (right l 1)
        rwa [← h1] at this
      have ha2 : At inp (d ++ c!":" ++ ws) (a ++ t) (right (right l 1) ws.length) := by
        rw [← h4]
        rw [h1] at ha1
        exact ha1.ws h2 (.inr (.inl ⟨d, ':', rfl, .inr (.inl rfl)⟩))
      have ha3 := ha2.plain h5
      rw [hw]
      refine ⟨_, t, _, _, rfl, h6, .inl ⟨ws, a, t, by rw [← h4, ← h1]; rfl, h2, by rw [← h4]; exact h3, h5, h6, ?_, rfl⟩, ha3⟩
      cases a <;> simp
  · rw [if_neg hc]
    obtain ⟨a, t, rfl, h5, h6⟩ := line_split x
    rw [skipCspan_append (notin' h5) (h6.imp id fun h => by simp [h]), Out.bind_ok]
    exact ⟨_, t, _, _, rfl, h6, .inr ⟨a, t, rfl, hc, h5, h6, rfl, rfl⟩, ha.plain h5⟩

/-- The first line of an exception; the location is that after the white space before the name. -/
theorem head_cases {inp d s : Str} {l : Loc} (ha : At inp d (skipWs s) (wsL s l)) :
    (∃ e u l', exceptionHeadL s l = .ok (.inr (e, u, l')) ∧ HeadText s e u ∧ (u ≠ [] → ∃ d', At inp d' u l' ∧ Edge d')) ∨
    ∃ l', exceptionHeadL s l = .ok (.inl (l', c!"Expected exception name")) ∧ (skipWs s = [] ∨ peek (skipWs s) = ':') ∧ ∃ d', At inp d' (skipWs s) l' := by
  obtain ⟨ws, h1, h2, h3⟩ := skipWs_split s
  obtain ⟨name, x, h4, h5, h6, h7⟩ := span_split (skipWs s) c!": \t\n"
  unfold exceptionHeadL
  dsimp only
  rw [h7, Out.bind_ok]
  dsimp only
  by_cases hn : name = []
  · subst hn
    refine .inr ⟨_, by rw [if_pos (by simp)], ?_, d ++ [], ?_⟩
    · rw [List.nil_append] at h4
      rw [h4] at h3 ⊢
      refine h6.imp id fun h => ?_
      simp only [List.mem_cons, List.not_mem_nil, or_false] at h
      rcases h with h | h | h | h
      · exact h
      · rw [h] at h3; exact absurd h3 (by decide)
      · rw [h] at h3; exact absurd h3 (by decide)
      · rw [h] at h3; exact absurd h3 (by decide)
    · exact At.plain (a := []) ha (by simp)
  · rw [if_neg (by simpa using hn)]
    rw [h4] at ha
    have hnl : '\n' ∉ name := fun h => h5 _ h (by simp)
    have ha1 := ha.plain hnl
    obtain ⟨m, t, l2, d2, k1, k2, k3, k4⟩ := messageL_cases ha1
    rw [k1, Out.bind_ok]
    dsimp only
    have hnew : ∃ l3, newlineL t l2 = .ok (t.drop 1, l3) ∧ (t.drop 1 ≠ [] → l3 = ⟨l2.line + 1, 0⟩) := by
      unfold newlineL
      rcases k2 with rfl | k2
      · exact ⟨_, rfl, fun h => absurd rfl h⟩
      · rw [if_pos k2]
        cases t with
        | nil => cases k2
        | cons c t => exact ⟨_, rfl, fun _ => by simp [Loc.add]⟩
    obtain ⟨l3, k5, k6⟩ := hnew
    rw [k5, Out.bind_ok, strndup, h4, List.take_left]
    refine .inl ⟨_, _, _, rfl, ⟨ws, name, x, m, by rw [← h4]; exact h1, h2, ?_, hn, ⟨rfl, h5, h6⟩, k3, rfl⟩, fun hu => ?_⟩
    · rw [h4] at h3
      cases name with
      | nil => exact absurd rfl hn
      | cons c a => exact h3
    · rw [k6 hu]
      have e := end_cons k2 rfl hu
      rw [e] at k4
      exact ⟨_, At.line (a := []) k4 (by simp), edge_nl _⟩

/-- The chain of exceptions. -/
theorem chain_cases (inp : Str) : ∀ (fuel : Nat) (s : Str) (l : Loc), s.length < fuel → NoNul s → (∃ d, At inp d (skipWs s) (wsL s l)) →
    (∃ fs u, parseExceptionL fuel s l = .ok (.inr (fs, u)) ∧ ChainText s fs u) ∨
    ∃ u l' m, parseExceptionL fuel s l = .ok (.inl (l', m)) ∧ ChainStop s u m ∧ ∃ d, At inp d u l'
  | 0, s, l, h, _, _ => by omega
  | fuel + 1, s, l, h, hz, ha => by
    rw [parseExceptionL]
    obtain ⟨d, ha⟩ := ha
    rcases head_cases ha with ⟨e, r, l1, h1, h2, h3⟩ | ⟨l1, h1, h2, h3⟩
    · rw [h1, Out.bind_ok]
      dsimp only
      have hzr := noNul_suffix hz h2.suffix
      have hrl : r.length < s.length := by
        obtain ⟨r0, hr0, hlen0⟩ := exceptionHead_yields s
        rcases head_exact s with ⟨e', r', m1, m2⟩ | ⟨m1, m2⟩
        · obtain ⟨-, rfl⟩ := m2.unique h2
          rw [hr0] at m1
          cases m1
          exact hlen0 _ rfl
        · exact absurd ⟨_, _, h2⟩ m2
      have step : ∀ x lx, (c!"Caused by: " ++ x) <:+ r → (∃ d, At inp d (c!"Caused by: " ++ x) lx) →
          (∃ fs u, parseExceptionL fuel x (right lx 11) = .ok (.inr (fs, u)) ∧ ChainText x fs u) ∨
          ∃ u l' m, parseExceptionL fuel x (right lx 11) = .ok (.inl (l', m)) ∧ ChainStop x u m ∧ ∃ d, At inp d u l' := by
        rintro x lx hx ⟨d, hd⟩
        have hx' : x <:+ r := (List.suffix_append _ x).trans hx
        refine chain_cases inp fuel x (right lx 11) (by have := hx'.length_le; omega) (noNul_suffix hzr hx') ?_
        exact (hd.plain (by decide)).skipWs (.inr (.inl ⟨d ++ c!"Caused by:", ' ', by simp, .inl (by decide)⟩))
      rcases calls_cases inp (r.length + 1) r l1 [] (Nat.lt_succ_self _) hzr h3 with ⟨fs, en, l2, k1, k2, k3, k4⟩ | ⟨u, l2, k1, k2, k3⟩
      · rw [k1, Out.bind_ok]
        dsimp only
        cases en with
        | text u =>
          have : u = [] := k3
          subst this
          exact .inl ⟨e :: fs, [], rfl, .all h2 k2⟩
        | cause u =>
          obtain ⟨x, rfl⟩ := k3
          have hx : (c!"Caused by: " ++ x).drop 11 = x := rfl
          simp only [causedByL, Out.bind_ok, hx]
          rcases step x l2 k2.suffix (k4 (by simp [Ending.rest])) with ⟨inner, v, q1, q2⟩ | ⟨v, l3, m, q1, q2, q3⟩
          · rw [q1, Out.bind_ok]
            exact .inl ⟨_, v, rfl, .cause h2 k2 q2⟩
          · rw [q1, Out.bind_ok]
            exact .inr ⟨v, l3, m, rfl, .cause h2 k2 q2, q3⟩
        | done c =>
          have hne : c ≠ [] := by rintro rfl; exact endMark_nil k3
          obtain ⟨d', ha'⟩ := k4 hne
          obtain ⟨x, l3, m1, m2, m3⟩ := after_cases ha'
          rw [show (Ending.done c).rest = c from rfl] at *
          rw [m2, Out.bind_ok]
          by_cases hc : c!"Caused by: " <+: x
          · rw [if_pos hc]
            obtain ⟨y, rfl⟩ := hc
            have hx : (c!"Caused by: " ++ y).drop 11 = y := rfl
            rw [hx]
            dsimp only
            rcases step y l3 (m1.suffix.trans k2.suffix) (m3 (by simp)) with ⟨inner, v, q1, q2⟩ | ⟨v, l4, m, q1, q2, q3⟩
            · rw [q1, Out.bind_ok]
              exact .inl ⟨_, v, rfl, .moreCause h2 k2 k3 m1 q2⟩
            · rw [q1, Out.bind_ok]
              exact .inr ⟨v, l4, m, rfl, .moreCause h2 k2 k3 m1 q2, q3⟩
          · rw [if_neg hc]
            exact .inl ⟨_, x, rfl, .more h2 k2 k3 m1 hc⟩
      · rw [k1, Out.bind_ok]
        exact .inr ⟨u, l2, _, rfl, .calls h2 k2, k3⟩
    · rw [h1, Out.bind_ok]
      exact .inr ⟨_, l1, _, rfl, .name h2, h3⟩

theorem at_init (inp : Str) : At inp [] inp Loc.init := ⟨rfl, by decide, fun _ => rfl⟩

/-- A text is read, or reading stops in it. -/
theorem trace_cases (inp : Str) (hz : NoNul inp) : (∃ t, parseText inp = .ok (.inl t) ∧ ∃ rest, TraceText inp t rest) ∨
    ∃ u l m, parseText inp = .ok (.inr (Loc.text l (some m))) ∧ Stops inp u m ∧ ∃ d, At inp d u l := by
  unfold parseText parseThreadL threadNameL
  by_cases hs : ∃ x, inp = c!"Exception in thread \"" ++ x
  · obtain ⟨x, rfl⟩ := hs
    generalize hin : c!"Exception in thread \"" ++ x = inp at hz
    have h0 : At inp (c!"Exception in thread \"") x (right Loc.init (21 : Nat)) := At.plain (d := []) (hin ▸ at_init _) (by decide)
    have hsk : skipString inp c!"Exception in thread \"" = (21, x) := by rw [← hin]; exact skipString_append _ _
    rw [hsk]
    dsimp only
    rw [if_neg (by simp)]
    obtain ⟨n, y, rfl, h1, h2, h3⟩ := span_split x c!"\"\n"
    rw [h3, Out.bind_ok]
    dsimp only
    have hq : '"' ∉ n := fun h => h1 _ h (by simp)
    have hn : '\n' ∉ n := fun h => h1 _ h (by simp)
    have ha := h0.plain hn
    by_cases hy : ∃ u, y = '"' :: u
    · obtain ⟨u, rfl⟩ := hy
      rw [if_neg (by simp)]
      simp only [advance, Out.bind_ok]
      rw [strndup, List.take_left]
      have hzu : NoNul u := noNul_suffix hz ⟨c!"Exception in thread \"" ++ n ++ c!"\"", by rw [← hin]; simp⟩
      have hA : ∃ d, At inp d (skipWs u) (wsL u ((right (right Loc.init (21 : Nat)) n.length).eat (peek u))) := by
        have ha1 := At.plain (a := c!"\"") ha (by decide)
        have he : Edge (c!"Exception in thread \"" ++ n ++ c!"\"") := .inr (.inl ⟨_, '"', rfl, .inr (.inr rfl)⟩)
        by_cases hu : peek u = '\n'
        · cases u with
          | nil => cases hu
          | cons c u =>
            obtain rfl : c = '\n' := hu
            obtain ⟨ws, g1, g2, g3⟩ := skipWs_split ('\n' :: u)
            have hws : ∃ w, ws = '\n' :: w := by
              cases ws with
              | nil => rw [List.nil_append] at g1; rw [← g1] at g3; exact absurd (show isSpace '\n' = false from g3) (by decide)
              | cons c w => cases (List.cons.inj g1).1; exact ⟨w, rfl⟩
            obtain ⟨w, rfl⟩ := hws
            refine ⟨c!"Exception in thread \"" ++ n ++ c!"\"" ++ '\n' :: w, ⟨?_, ?_, fun ht => ?_⟩⟩
            · generalize skipWs ('\n' :: u) = v at g1
              rw [← hin, g1]
              simp
            · rw [wsL, right_line, locOf_line]
              have : (locOf (c!"Exception in thread \"" ++ n ++ c!"\"")).line = 1 := by
                simp [locOf, List.count_eq_zero.2 hn]
              rw [this]
              simp [Loc.eat, right_line, Loc.init]
              omega
            · exact absurd he (ht _ u (by rw [← hin]; simp))
        · have : (right (right Loc.init (21 : Nat)) n.length).eat (peek u) = right (right (right Loc.init (21 : Nat)) n.length) 1 := by
            simp [Loc.eat, hu, right, Loc.add]
          rw [this]
          exact ha1.skipWs he
      rcases chain_cases inp (u.length + 1) u _ (Nat.lt_succ_self _) hzu hA with ⟨fs, v, k1, k2⟩ | ⟨v, l', m, k1, k2, k3⟩
      · rw [k1]
        exact .inl ⟨⟨some n, fs⟩, rfl, v, .inl ⟨n, u, hin.symm, hq, hn, rfl, k2⟩⟩
      · rw [k1]
        exact .inr ⟨v, l', m, rfl, hin ▸ .named hq hn k2, k3⟩
    · have hp : peek y ≠ '"' := by
        cases y with
        | nil => decide
        | cons c y => rintro h; exact hy ⟨y, by rw [show c = '"' from h]⟩
      rw [if_pos hp]
      refine .inr ⟨y, _, _, rfl, hin ▸ .thread hq hn ?_, _, ha⟩
      refine h2.imp id fun h => ?_
      simp only [List.mem_cons, List.not_mem_nil, or_false] at h
      exact h.resolve_left hp
  · rw [skipString_fail hs]
    dsimp only
    rw [if_pos rfl, Out.bind_ok]
    dsimp only
    have hp : ¬ c!"Exception in thread \"" <+: inp := fun ⟨x, e⟩ => hs ⟨x, e.symm⟩
    have ha : At inp ([] ++ []) inp (right Loc.init (0 : Nat)) := At.plain (a := []) (at_init inp) (by simp)
    rcases chain_cases inp (inp.length + 1) inp _ (Nat.lt_succ_self _) hz (ha.skipWs (.inl rfl)) with ⟨fs, v, k1, k2⟩ | ⟨v, l', m, k1, k2, k3⟩
    · rw [k1]
      exact .inl ⟨⟨none, fs⟩, rfl, v, .inr ⟨hp, rfl, k2⟩⟩
    · rw [k1]
      exact .inr ⟨v, l', m, rfl, .plain hp k2, k3⟩

/-! ## Reading stops at one place at most, and only if the text is not read -/

theorem CallText.found {s u : Str} {f : JavaFrame} (h : CallText s f u) : ∃ a b, s = a ++ c!"at" ++ b := by
  obtain ⟨pre, ws, l, t, h1, -⟩ := h
  exact ⟨_, _, h1.1⟩

theorem CallsStop.unique {s u u' : Str} (h : CallsStop s u) (h' : CallsStop s u') : u = u' := by
  induction h with
  | here _ _ k =>
    cases h' with
    | here _ _ _ => rfl
    | call _ c _ => exact absurd c.found k
  | call _ c _ ih =>
    cases h' with
    | here _ _ k => exact absurd c.found k
    | call _ c' k => obtain ⟨-, rfl⟩ := c.unique c'; exact ih k

theorem CallsStop.not_text {s u c : Str} {fs : List JavaFrame} (h : CallsStop s u) (h' : CallsText s fs c) : False := by
  induction h generalizing fs c with
  | here hne hm k =>
    cases h' with
    | empty => exact hne rfl
    | mark _ k' => exact hm k'
    | call _ c _ => exact k c.found
  | call hm ct _ ih =>
    cases h' with
    | empty => obtain ⟨a, b, e⟩ := ct.found; simp [skipWs] at e
    | mark _ k' => exact hm k'
    | call _ c' k' => obtain ⟨-, rfl⟩ := ct.unique c'; exact ih k'

theorem name_not_head {s r : Str} {e : JavaFrame} (h : skipWs s = [] ∨ peek (skipWs s) = ':') (h' : HeadText s e r) : False := by
  obtain ⟨ws, name, x, m, rfl, k1, k2, k3, k4, -⟩ := h'
  cases name with
  | nil => exact k3 rfl
  | cons c name =>
    rw [skipWs_of k1 (by exact k2)] at h
    rcases h with h | h
    · cases h
    · exact k4.before c (by simp) (by rw [show c = ':' from h]; simp)

theorem ChainStop.unique {s u u' m m' : Str} (h : ChainStop s u m) (h' : ChainStop s u' m') : u = u' ∧ m = m' := by
  induction h generalizing u' m' with
  | name k =>
    cases h' with
    | name _ => exact ⟨rfl, rfl⟩
    | calls a _ => exact (name_not_head k a).elim
    | cause a _ _ => exact (name_not_head k a).elim
    | moreCause a _ _ _ _ => exact (name_not_head k a).elim
  | calls a b =>
    cases h' with
    | name k => exact (name_not_head k a).elim
    | calls a' b' => obtain ⟨-, rfl⟩ := a.unique a'; exact ⟨b.unique b', rfl⟩
    | cause a' b' _ => obtain ⟨-, rfl⟩ := a.unique a'; exact (b.not_text b').elim
    | moreCause a' b' _ _ _ => obtain ⟨-, rfl⟩ := a.unique a'; exact (b.not_text b').elim
  | cause a b _ ih =>
    cases h' with
    | name k => exact (name_not_head k a).elim
    | calls a' b' => obtain ⟨-, rfl⟩ := a.unique a'; exact (b'.not_text b).elim
    | cause a' b' k => obtain ⟨-, rfl⟩ := a.unique a'; cases List.append_cancel_left (b.unique b').2; exact ih k
    | moreCause a' b' c _ _ => obtain ⟨-, rfl⟩ := a.unique a'; exact (endMark_cause c (b'.unique b).2).elim
  | moreCause a b c d _ ih =>
    cases h' with
    | name k => exact (name_not_head k a).elim
    | calls a' b' => obtain ⟨-, rfl⟩ := a.unique a'; exact (b'.not_text b).elim
    | cause a' b' k => obtain ⟨-, rfl⟩ := a.unique a'; exact (endMark_cause c (b.unique b').2).elim
    | moreCause a' b' c' d' k =>
      obtain ⟨-, rfl⟩ := a.unique a'
      obtain ⟨-, rfl⟩ := b.unique b'
      cases List.append_cancel_left (d.unique d')
      exact ih k

theorem ChainStop.not_text {s u v m : Str} {fs : List JavaFrame} (h : ChainStop s u m) (h' : ChainText s fs v) : False := by
  induction h generalizing fs v with
  | name k =>
    cases h' with
    | all a _ => exact name_not_head k a
    | more a _ _ _ _ => exact name_not_head k a
    | cause a _ _ => exact name_not_head k a
    | moreCause a _ _ _ _ => exact name_not_head k a
  | calls a b =>
    cases h' with
    | all a' b' => obtain ⟨-, rfl⟩ := a.unique a'; exact b.not_text b'
    | more a' b' _ _ _ => obtain ⟨-, rfl⟩ := a.unique a'; exact b.not_text b'
    | cause a' b' _ => obtain ⟨-, rfl⟩ := a.unique a'; exact b.not_text b'
    | moreCause a' b' _ _ _ => obtain ⟨-, rfl⟩ := a.unique a'; exact b.not_text b'
  | cause a b _ ih =>
    cases h' with
    | all a' b' => obtain ⟨-, rfl⟩ := a.unique a'; have := (b.unique b').2; simp at this
    | more a' b' c _ _ => obtain ⟨-, rfl⟩ := a.unique a'; exact endMark_cause c (b'.unique b).2
    | cause a' b' k => obtain ⟨-, rfl⟩ := a.unique a'; cases List.append_cancel_left (b.unique b').2; exact ih k
    | moreCause a' b' c _ _ => obtain ⟨-, rfl⟩ := a.unique a'; exact endMark_cause c (b'.unique b).2
  | moreCause a b c d _ ih =>
    cases h' with
    | all a' b' => obtain ⟨-, rfl⟩ := a.unique a'; exact endMark_nil ((b.unique b').2 ▸ c)
    | more a' b' _ d' e' =>
      obtain ⟨-, rfl⟩ := a.unique a'
      obtain ⟨-, rfl⟩ := b.unique b'
      exact e' ⟨_, d.unique d'⟩
    | cause a' b' _ => obtain ⟨-, rfl⟩ := a.unique a'; exact endMark_cause c (b.unique b').2
    | moreCause a' b' _ d' k =>
      obtain ⟨-, rfl⟩ := a.unique a'
      obtain ⟨-, rfl⟩ := b.unique b'
      cases List.append_cancel_left (d.unique d')
      exact ih k

theorem quote_end {n a s u : Str} (hn : '"' ∉ n) (hn' : '\n' ∉ n) (ha : '"' ∉ a) (ha' : '\n' ∉ a) (hu : LineEnd u) (e : n ++ '"' :: s = a ++ u) :
    False := by
  have e1 : Upto c!"\"\n" (n ++ '"' :: s) n ('"' :: s) := ⟨rfl, not_in hn hn', .inr (by simp)⟩
  have e2 : Upto c!"\"\n" (n ++ '"' :: s) a u := ⟨e, not_in ha ha', hu.imp id fun h => by simp [h]⟩
  obtain ⟨-, rfl⟩ := e1.unique e2
  rcases hu with h | h
  · cases h
  · exact absurd h (by simp)

theorem Stops.unique {s u u' m m' : Str} (h : Stops s u m) (h' : Stops s u' m') : u = u' ∧ m = m' := by
  cases h with
  | thread h1 h2 h3 =>
    generalize e : c!"Exception in thread \"" ++ _ = s at h'
    cases h' with
    | thread k1 k2 k3 =>
      obtain ⟨rfl, rfl⟩ := line_unique h2 h3 k2 k3 (List.append_cancel_left e)
      exact ⟨rfl, rfl⟩
    | named k1 k2 _ => exact (quote_end k1 k2 h1 h2 h3 (List.append_cancel_left e).symm).elim
    | plain k _ => exact absurd ⟨_, e⟩ k
  | named h1 h2 h3 =>
    generalize e : c!"Exception in thread \"" ++ _ = s at h'
    cases h' with
    | thread k1 k2 k3 => exact (quote_end h1 h2 k1 k2 k3 (List.append_cancel_left e)).elim
    | named k1 k2 k3 =>
      obtain ⟨-, rfl⟩ := first_unique (List.append_cancel_left e) h1 k1
      exact h3.unique k3
    | plain k _ => exact absurd ⟨_, e⟩ k
  | plain h1 h2 =>
    cases h' with
    | thread _ _ _ => exact absurd ⟨_, rfl⟩ h1
    | named _ _ _ => exact absurd ⟨_, rfl⟩ h1
    | plain _ k => exact h2.unique k

theorem Stops.not_text {s u m rest : Str} {t : JavaThread} (h : Stops s u m) (h' : TraceText s t rest) : False := by
  cases h with
  | thread h1 h2 h3 =>
    rcases h' with ⟨n, v, e, k1, k2, -, -⟩ | ⟨k, -, -⟩
    · exact quote_end k1 k2 h1 h2 h3 (List.append_cancel_left e).symm
    · exact k ⟨_, rfl⟩
  | named h1 h2 h3 =>
    rcases h' with ⟨n, v, e, k1, k2, -, k3⟩ | ⟨k, -, -⟩
    · obtain ⟨-, rfl⟩ := first_unique (List.append_cancel_left e) h1 k1
      exact h3.not_text k3
    · exact k ⟨_, rfl⟩
  | plain h1 h2 =>
    rcases h' with ⟨n, v, rfl, -⟩ | ⟨-, -, k⟩
    · exact h1 ⟨_, rfl⟩
    · exact h2.not_text k

/-- C136, Java: a text is read, and then as without locations, exactly if reading stops nowhere. -/
theorem C136_java_read (inp : Str) (hz : NoNul inp) :
    (∀ t, parseText inp = .ok (.inl t) ↔ ∃ rest, TraceText inp t rest) ∧ ((∃ t rest, TraceText inp t rest) ↔ ∀ u m, ¬ Stops inp u m) := by
  rcases trace_cases inp hz with ⟨t, h1, rest, h2⟩ | ⟨u, l, m, h1, h2, -⟩
  · refine ⟨fun t' => ⟨fun h => ?_, fun ⟨r, h⟩ => ?_⟩, fun _ u m h => h.not_text h2, fun _ => ⟨t, rest, h2⟩⟩
    · rw [h1] at h; cases h; exact ⟨rest, h2⟩
    · obtain ⟨rfl, -⟩ := C70_unique h h2; exact h1
  · refine ⟨fun t' => ⟨fun h => ?_, fun ⟨r, h⟩ => (h2.not_text h).elim⟩, fun ⟨t, r, h⟩ => (h2.not_text h).elim, fun h => absurd h2 (h u m)⟩
    rw [h1] at h; cases h

/-- C136, Java: if reading stops, the message says why and names no line after that of the place, and exactly the place in tidy texts. -/
theorem C136_java (inp : Str) (hz : NoNul inp) (u m : Str) (h : Stops inp u m) :
    ∃ (l : Loc) (done : Str), parseText inp = .ok (.inr (l.text (some m))) ∧ inp = done ++ u ∧ l.line ≤ (locOf done).line ∧
      (Tidy inp → l = locOf done) := by
  rcases trace_cases inp hz with ⟨t, -, rest, h2⟩ | ⟨u', l, m', h1, h2, d, h3⟩
  · exact (h.not_text h2).elim
  · obtain ⟨rfl, rfl⟩ := h.unique h2
    exact ⟨l, d, h1, h3.split, h3.le, h3.eq⟩

theorem text_of {inp : Str} {l : Loc} {m : Str} (h : parseThreadL inp Loc.init = .ok (.inl (l, m))) :
    parseText inp = .ok (.inr (l.text (some m))) := by
  unfold parseText
  rw [h]
  rfl

theorem at_free {s : Str} (h : (strstrLocation s c!"at").1 = none) : ¬ ∃ a b, s = a ++ c!"at" ++ b :=
  (strstr_none (by decide) (by simp [NoNul])).1 h

theorem head_of {s u : Str} {e : JavaFrame} (h : exceptionHead s = .ok (some (e, u))) : HeadText s e u := by
  rcases head_exact s with ⟨e', u', h1, h2⟩ | ⟨h1, -⟩
  · rw [h] at h1; cases h1; exact h2
  · rw [h] at h1; cases h1

/-- A check for tidy texts. -/
def edgeB (d : Str) : Bool :=
  match d.reverse with
  | [] => true
  | c :: r => isSpace c || c == ':' || c == '"' || (c == 't' && r.head? == some 'a')

theorem edgeB_of {d : Str} (h : Edge d) : edgeB d = true := by
  rcases h with rfl | ⟨p, c, rfl, h⟩ | ⟨p, rfl⟩
  · rfl
  · simp only [edgeB, List.reverse_append, List.reverse_cons, List.reverse_nil, List.nil_append, List.singleton_append]
    rcases h with h | rfl | rfl
    · simp [h]
    · simp
    · simp
  · simp [edgeB]

theorem tidy_of {inp : Str} (h : ∀ i < inp.length, inp[i]? = some '\n' → edgeB (inp.take i) = false) : Tidy inp := by
  rintro a b rfl he
  have := h a.length (by simp) (by simp)
  rw [List.take_left, edgeB_of he] at this
  cases this

example : Stops c!"Exception in thread \"main\" E: m\n\tat f(a.java:1)\nCaused by: F\n\tin g\n" c!"in g\n" c!"Frame expected" :=
  .named (n := c!"main") (s := c!" E: m\n\tat f(a.java:1)\nCaused by: F\n\tin g\n") (by decide) (by decide)
    (.cause (e := { name := some c!"E", isException := true, message := some c!"m" }) (r := c!"\tat f(a.java:1)\nCaused by: F\n\tin g\n")
      (d := c!"F\n\tin g\n") (fs := [{ name := some c!"f", fileName := some c!"a.java", fileLine := 1 }]) (head_of (by decide +kernel))
      (.call (u := c!"Caused by: F\n\tin g\n") (by unfold EndMark; decide +kernel) ((C70_exact_frame _ _ _).1 (by decide +kernel))
        (.mark (by decide) (.inr (by decide +kernel))))
      (.calls (e := { name := some c!"F", isException := true }) (r := c!"\tin g\n") (head_of (by decide +kernel))
        (.here (by decide) (by unfold EndMark; decide +kernel) (at_free (by decide +kernel)))))

example : Tidy c!"Exception in thread \"main\" E: m\n\tat f(a.java:1)\nCaused by: F\n\tin g\n" := tidy_of (by decide +kernel)

example : parseText c!"Exception in thread \"main\" E: m\n\tat f(a.java:1)\nCaused by: F\n\tin g\n" =
    .ok (.inr (Loc.text ⟨4, 1⟩ (some c!"Frame expected"))) := text_of (by decide +kernel)

/-- An empty line, and the line that is named is one too small: reading stops in line 3. -/
theorem C136_not_java : ∃ inp u m column done, Stops inp u m ∧ parseText inp = .ok (.inr (Loc.text ⟨2, column⟩ (some m))) ∧ inp = done ++ u ∧
    (locOf done).line = 3 :=
  ⟨c!"E: m\n\nin g\n", c!"in g\n", c!"Frame expected", 1, c!"E: m\n\n",
    .plain (by decide) (.calls (e := { name := some c!"E", isException := true, message := some c!"m" }) (r := c!"\nin g\n") (head_of (by decide +kernel))
      (.here (by decide) (by unfold EndMark; decide +kernel) (at_free (by decide +kernel)))),
    text_of (by decide +kernel), rfl, by decide +kernel⟩

end Satyr.Text.Java
