import Verif.Text.JavaModel
import Verif.Text.Js
import Verif.Text.Ruby
/-!
# C54, C70 and C56: Java frames, exceptions and threads are read, and the text is not left
-/
namespace Satyr.Text.Java
open Satyr.CStr Satyr.Frames
open Satyr.Text.Js (LineEnd drop_len)

/-! ## The text is not left, and the loops end -/

theorem peek_not_nul {s : Str} (h : peek s ≠ '\x00') : s ≠ [] := by rintro rfl; exact h rfl

theorem jarPrefix_yields (mark cursor : Str) (hc : cursor ≠ []) :
    Yields (jarPrefix mark cursor) fun r => match r with
      | .inl s => s.length ≤ cursor.length
      | .inr (_, m, c) => (m = mark ∨ m.length ≤ cursor.length) ∧ c.length ≤ cursor.length ∧ c ≠ [] := by
  unfold jarPrefix
  refine Yields.ite (fun _ => ?_) fun _ => .ok ⟨.inl rfl, le_refl _, hc⟩
  refine (advance_yields hc).bind fun m hm => (skipCharCspan_yields m _).bind fun r hr => Yields.ite (fun _ => .ok ?_) fun h => .ok ?_
  · show r.2.length ≤ _
    omega
  · exact ⟨.inr (by omega), (by omega : r.2.length ≤ _), peek_ne (not_not.1 h) (by decide)⟩

theorem path_yields (stop mark cursor : Str) (hc : cursor ≠ []) :
    Yields (path stop mark cursor) fun r => r.2.length ≤ max mark.length cursor.length := by
  unfold path filePrefix
  have : Yields (if startsWith mark c!"file:" = true then advance cursor else .ok mark) fun r => r.length ≤ max mark.length cursor.length :=
    Yields.ite (fun _ => (advance_yields hc).mono fun a h => by omega) fun _ => .ok (by omega)
  exact this.bind fun m hm => (skipCharCspan_yields m _).bind fun r hr => .ok (by dsimp only; omega)

theorem pathEnd_yields (r : Option Str × Str) : Yields (pathEnd r) fun x => x.2.length ≤ r.2.length :=
  Yields.ite (fun _ => (skipCharCspan_yields _ _).bind fun _ h => .ok h) fun _ => .ok (le_refl _)

theorem frameUrl_yields (s : Str) : Yields (frameUrl s) fun r => r.2.length ≤ s.length := by
  unfold frameUrl
  refine (skipCharCspan_yields s _).bind fun a ha => Yields.ite (fun _ => .ok ha) fun h => ?_
  refine (advance_yields (peek_ne (not_not.1 h) (by decide))).bind fun m hm => (skipCharCspan_yields m _).bind fun c hc =>
    Yields.ite (fun _ => (pathEnd_yields _).mono fun x hx => ?_) fun hp => ?_
  · dsimp only at hx; omega
  · refine (jarPrefix_yields m c.2 (peek_ne (not_not.1 hp) (by decide))).bind fun r hr => ?_
    rcases r with r | ⟨stop, m', c'⟩
    · exact .ok (by dsimp only at hr ⊢; omega)
    · obtain ⟨h1, h2, h3⟩ := hr
      refine (path_yields stop m' c' h3).bind fun x hx => (pathEnd_yields x).mono fun y hy => ?_
      have : m'.length ≤ m.length := by rcases h1 with rfl | h1 <;> omega
      omega

theorem lineNumber_yields (s : Str) : Yields (lineNumber s) fun r => r.2.length ≤ s.length :=
  Yields.ite (fun h => (advance_yields (peek_ne h (by decide))).bind fun m hm => (parseUint32_yields m).bind fun r hr =>
    .ok (by
      show r.2.2.length ≤ _
      omega)) fun _ => .ok (le_refl _)

theorem source_yields (s : Str) : Yields (source s) fun r => r.2.2.2.length ≤ s.length :=
  Yields.ite (fun _ => .ok (le_refl _)) fun h => (advance_yields (peek_ne (not_not.1 h) (by decide))).bind fun m hm =>
    (skipCharCspan_yields m _).bind fun r hr => (lineNumber_yields r.2).bind fun l hl => .ok (by
      show l.2.length ≤ _
      omega)

theorem lineEnd_yields (s : Str) : Yields (lineEnd s) fun r => r.length ≤ s.length := by
  have : (s.drop (strchrnulI '\n' s)).length ≤ s.length := by simp
  exact Yields.ite (fun h => (advance_yields (peek_ne h (by decide))).mono fun m hm => by omega) fun _ => .ok this

theorem strstrLocation_some {h needle t : Str} (hne : needle ≠ []) (hnul : NoNul needle) (hs : (strstrLocation h needle).1 = some t) :
    needle.length ≤ t.length ∧ t.length ≤ h.length := by
  by_cases hex : ∃ pre rest, h = pre ++ needle ++ rest
  · have : ∃ n pre rest, h = pre ++ needle ++ rest ∧ pre.length = n := by
      obtain ⟨pre, rest, he⟩ := hex; exact ⟨_, pre, rest, he, rfl⟩
    classical
    obtain ⟨pre, rest, he, hl⟩ := Nat.find_spec this
    have := (C28_strstr h needle hne hnul).1 pre rest he fun pre' rest' he' => by
      rw [hl]; exact Nat.find_min' this ⟨pre', rest', he', rfl⟩
    rw [this] at hs
    cases hs
    rw [he]
    constructor <;> len
  · rw [(C28_strstr h needle hne hnul).2 hex] at hs
    cases hs

theorem parseFrame_yields (s : Str) : Yields (parseFrame s) fun r => ∀ x, r = some x → x.2.length < s.length := by
  unfold parseFrame
  cases h : (strstrLocation s c!"at").1 with
  | none => exact .ok (by rintro x ⟨⟩)
  | some c =>
    obtain ⟨h1, h2⟩ := strstrLocation_some (by decide) (by simp [NoNul]) h
    have h3 : (skipWs (c.drop 2)).length < s.length := by
      have := skipWs_len (c.drop 2)
      have h4 : c!"at".length = 2 := rfl
      rw [List.length_drop] at this
      omega
    refine (skipCharCspan_yields _ _).bind fun a ha => (source_yields a.2).bind fun b hb => (frameUrl_yields b.2.2.2).bind fun d hd =>
      (lineEnd_yields d.2).bind fun e he => .ok ?_
    rintro x ⟨⟩
    dsimp only
    omega

/-- C56 for Java frames: whatever the text is, reading it is well-defined. -/
theorem C56_java_frame (s : Str) : ∃ r, parseFrame s = .ok r := (parseFrame_yields s).fine

theorem exceptionHead_yields (s : Str) : Yields (exceptionHead s) fun r => ∀ x, r = some x → x.2.length < s.length := by
  unfold exceptionHead
  refine (skipCharCspan_count _ _).bind fun a ha => Yields.ite (fun _ => .ok (by rintro x ⟨⟩)) fun h0 => ?_
  have hw := skipWs_len s
  have hm : Yields (message a.2) fun r => r.2.length ≤ a.2.length :=
    Yields.ite (fun h => (advance_yields (peek_ne h (by decide))).bind fun m hm => (skipCharCspan_yields _ _).bind fun r hr => .ok (by
      have := skipWs_len m
      dsimp only
      omega)) fun _ => (skipCharCspan_yields _ _).bind fun r hr => .ok hr
  refine hm.bind fun m hm => ?_
  have hn : Yields (newline m.2) fun r => r.length ≤ m.2.length :=
    Yields.ite (fun h => (advance_yields (peek_ne h (by decide))).mono fun m hm => by omega) fun _ => .ok (le_refl _)
  refine hn.bind fun n hn => .ok ?_
  rintro x ⟨⟩
  dsimp only
  omega

/-- The text at which the frames of an exception end. -/
def Ending.rest : Ending → Str
  | .text s => s
  | .done s => s
  | .cause s => s

theorem framesLoop_yields : ∀ (fuel : Nat) (s : Str) (acc : List JavaFrame), s.length < fuel →
    Yields (framesLoop fuel s acc) fun r => ∀ x, r = some x → x.2.rest.length ≤ s.length ∧
      ∀ t, x.2 = .cause t → startsWith t c!"Caused by: " = true
  | 0, s, acc, h => by omega
  | fuel + 1, s, acc, h => by
    rw [framesLoop]
    have hw := skipWs_len s
    refine Yields.ite (fun _ => .ok ?_) fun _ => Yields.ite (fun _ => .ok ?_) fun _ => Yields.ite (fun hc => .ok ?_) fun _ => ?_
    · rintro x ⟨⟩; exact ⟨le_refl _, by rintro t ⟨⟩⟩
    · rintro x ⟨⟩; exact ⟨hw, by rintro t ⟨⟩⟩
    · rintro x ⟨⟩; exact ⟨hw, by rintro t ⟨⟩; exact hc⟩
    · refine (parseFrame_yields _).bind fun r hr => ?_
      cases r with
      | none => exact .ok (by rintro x ⟨⟩)
      | some x =>
        have := hr x rfl
        refine (framesLoop_yields fuel x.2 _ (by omega)).mono fun y hy z hz => ?_
        have := hy z hz
        exact ⟨by omega, this.2⟩

theorem skipIndented_yields : ∀ (fuel : Nat) (s : Str), s.length < fuel → Yields (skipIndented fuel s) fun r => r.length ≤ s.length
  | 0, s, h => by omega
  | fuel + 1, s, h => by
    rw [skipIndented]
    refine Yields.ite (fun hs => ?_) fun _ => .ok (le_refl _)
    have hne : s ≠ [] := by rintro rfl; exact absurd hs (by decide)
    refine (skipToNextLine_yields s _).bind fun r hr => (skipIndented_yields fuel r.2.1 (by have := hr.2 hne; omega)).mono fun x hx => by
      have := hr.1; omega

theorem drop_caused {s : Str} (h : startsWith s c!"Caused by: " = true) : (s.drop 11).length < s.length := by
  obtain ⟨t, rfl⟩ := (startsWith_split _ _).1 h
  rw [List.length_drop]
  len

theorem causedBy_yields (e : Ending) (hc : ∀ t, e = .cause t → startsWith t c!"Caused by: " = true) :
    Yields (causedBy e) fun r => match r with
      | .inl s => s.length ≤ e.rest.length
      | .inr s => s.length < e.rest.length := by
  cases e with
  | text s => exact .ok (le_refl _)
  | cause s => exact .ok (drop_caused (hc s rfl))
  | done s =>
    refine (skipToNextLine_yields s _).bind fun a ha => ?_
    have hw := skipWs_len a.2.1
    have : Yields (skipSuppressed (skipWs a.2.1)) fun r => r.length ≤ s.length := by
      refine Yields.ite (fun _ => ?_) fun _ => .ok (by have := ha.1; omega)
      refine (skipToNextLine_yields _ _).bind fun b hb => (skipIndented_yields (b.2.1.length + 1) b.2.1 (by omega)).mono fun x hx => ?_
      have := ha.1
      have := hb.1
      omega
    refine this.bind fun r hr => Yields.ite (fun h => .ok ?_) fun _ => .ok hr
    have := drop_caused h
    show _ < s.length
    omega

theorem parseException_yields : ∀ (fuel : Nat) (s : Str), s.length < fuel →
    Yields (parseException fuel s) fun r => ∀ x, r = some x → x.2.length < s.length
  | 0, s, h => by omega
  | fuel + 1, s, h => by
    rw [parseException]
    refine (exceptionHead_yields s).bind fun r hr => ?_
    cases r with
    | none => exact .ok (by rintro x ⟨⟩)
    | some x =>
      obtain ⟨e, s'⟩ := x
      have h1 := hr _ rfl
      dsimp only at h1
      refine (framesLoop_yields _ s' [] (by omega)).bind fun r hr => ?_
      cases r with
      | none => exact .ok (by rintro x ⟨⟩)
      | some x =>
        obtain ⟨frames, ending⟩ := x
        have h2 := hr _ rfl
        dsimp only at h2
        refine (causedBy_yields ending h2.2).bind fun r hr => ?_
        cases r with
        | inl t =>
          refine .ok ?_
          rintro x ⟨⟩
          dsimp only at hr ⊢
          omega
        | inr t =>
          dsimp only at hr
          refine (parseException_yields fuel t (by omega)).bind fun r hr => ?_
          cases r with
          | none => exact .ok (by rintro x ⟨⟩)
          | some y =>
            have := hr y rfl
            refine .ok ?_
            rintro x ⟨⟩
            dsimp only
            omega

theorem threadName_yields (s : Str) : Yields (threadName s) fun _ => True := by
  unfold threadName
  dsimp only
  refine Yields.ite (fun _ => .ok trivial) fun _ => (skipCharCspan_yields _ _).bind fun a _ => Yields.ite (fun _ => .ok trivial) fun h =>
    (advance_yields (peek_ne (not_not.1 h) (by decide))).bind fun _ _ => .ok trivial

/-- C56 for Java stack traces: whatever the text is, reading it is well-defined and comes to an end. -/
theorem C56_java_trace (s : Str) : ∃ r, parseThread s = .ok r := by
  refine Yields.fine (P := fun _ => True) ?_
  unfold parseThread
  refine (threadName_yields s).bind fun r _ => ?_
  cases r with
  | none => exact .ok trivial
  | some x =>
    refine (parseException_yields _ _ (by omega)).bind fun r _ => ?_
    cases r with
    | none => exact .ok trivial
    | some y => exact .ok trivial

/-! ## Reading frames -/

/-- Where the code of a method comes from, as shown in parentheses. -/
inductive Source where
  | native
  | unknown
  | file (name : Str)

def Source.text : Source → Str
  | .native => c!"Native Method"
  | .unknown => c!"Unknown Source"
  | .file f => f

def Source.WF : Source → Prop
  | .native => True
  | .unknown => True
  | .file f => f ≠ [] ∧ ':' ∉ f ∧ ')' ∉ f ∧ '\n' ∉ f ∧ startsWith f c!"Native Method" = false ∧ startsWith f c!"Unknown Source" = false

/-- The address of the class, as shown in brackets. -/
inductive Url where
  /-- Nothing is shown. -/
  | absent
  /-- ` [unknown]`, or any text without a colon. -/
  | plain (text : Str)
  /-- ` [file:...]` -/
  | file (path : Str)
  /-- ` [http://...]` -/
  | other (url : Str)
  /-- ` [jar:file:...!...]` -/
  | jarFile (path member : Str)
  /-- ` [jar:http://...!...]` -/
  | jar (url member : Str)

def Url.text : Url → Str
  | .absent => []
  | .plain t => c!" [" ++ t ++ c!"]"
  | .file p => c!" [file:" ++ p ++ c!"]"
  | .other p => c!" [" ++ p ++ c!"]"
  | .jarFile p m => c!" [jar:file:" ++ p ++ c!"!" ++ m ++ c!"]"
  | .jar p m => c!" [jar:" ++ p ++ c!"!" ++ m ++ c!"]"

def Url.WF : Url → Prop
  | .absent => True
  | .plain t => ':' ∉ t ∧ '\n' ∉ t
  | .file p => p ≠ [] ∧ ']' ∉ p ∧ '\n' ∉ p
  | .other p => ':' ∈ p ∧ ']' ∉ p ∧ '\n' ∉ p ∧ startsWith p c!"jar:" = false ∧ startsWith p c!"file:" = false
  | .jarFile p m => p ≠ [] ∧ '!' ∉ p ∧ '\n' ∉ p ∧ '\n' ∉ m
  | .jar p m => ':' ∈ p ∧ '!' ∉ p ∧ '\n' ∉ p ∧ startsWith p c!"file:" = false ∧ '\n' ∉ m

/-- The class path to be read. -/
def Url.classPath : Url → Option Str
  | .absent => none
  | .plain _ => none
  | .file p => some (anonymizePath p)
  | .other p => some (anonymizePath p)
  | .jarFile p _ => some (anonymizePath p)
  | .jar p _ => some (anonymizePath p)

/-- A line of a Java stack trace. -/
structure Call where
  name : Str
  source : Source
  line : Option Nat
  url : Url

def Call.lineText (c : Call) : Str := match c.line with | none => [] | some n => ':' :: natDec n

/-- The text of a call, after its indentation. -/
def Call.text (c : Call) : Str := c!"at " ++ c.name ++ c!"(" ++ c.source.text ++ c.lineText ++ c!")" ++ c.url.text

structure Call.WF (c : Call) : Prop where
  blank : isSpace (peek c.name) = false
  paren : '(' ∉ c.name
  newline : '\n' ∉ c.name
  source : c.source.WF
  line : ∀ n, c.line = some n → n < 2 ^ 32
  url : c.url.WF

/-- The frame to be read. -/
def Call.frame (c : Call) : JavaFrame :=
  { name := if c.name = [] then none else some c.name
    fileName := match c.source with | .file f => some (anonymizePath f) | _ => none
    fileLine := c.line.getD 0
    classPath := c.url.classPath
    isNative := match c.source with | .native => true | _ => false }

theorem not_in {a : Str} {c d : Char} (h1 : c ∉ a) (h2 : d ∉ a) : ∀ x ∈ a, x ∉ [c, d] := by
  intro x hx
  simp only [List.mem_cons, List.not_mem_nil, or_false, not_or]
  exact ⟨by rintro rfl; exact h1 hx, by rintro rfl; exact h2 hx⟩

theorem LineEnd.mem {t : Str} (h : LineEnd t) (c : Char) : t = [] ∨ peek t ∈ [c, '\n'] := h.imp id fun h => by simp [h]

theorem pathEnd_bracket (p : Option Str) (t : Str) : pathEnd (p, ']' :: t) = .ok (p, ']' :: t) := rfl

theorem pathEnd_other {p : Option Str} {a t : Str} (ha : '\n' ∉ a) (ht : LineEnd t) :
    ∃ b, pathEnd (p, a ++ t) = .ok (p, b ++ t) ∧ '\n' ∉ b := by
  unfold pathEnd
  split
  · obtain ⟨x, y, he, hx, hy, hs⟩ := span_split (a ++ t) c!"]\n"
    dsimp only
    rw [hs, Out.bind_ok]
    dsimp only
    have hxn : '\n' ∉ x := fun hm => hx _ hm (by simp)
    rcases List.append_eq_append_iff.1 he with ⟨z, rfl, h2⟩ | ⟨z, rfl, rfl⟩
    · rcases z with _ | ⟨c, z⟩
      · exact ⟨[], by rw [List.nil_append]; exact congrArg _ (Prod.ext rfl (by simpa using h2.symm)), by simp⟩
      · exfalso
        rcases ht with rfl | ht
        · simp at h2
        · rw [h2] at ht
          simp only [List.cons_append, peek_cons] at ht
          exact hxn (by simp [ht])
    · exact ⟨z, rfl, fun hm => ha (by simp [hm])⟩
  · exact ⟨a, rfl, ha⟩

theorem first_colon {p : Str} (h : ':' ∈ p) (hn : '\n' ∉ p) (r : Str) :
    ∃ a b, p = a ++ ':' :: b ∧ skipCharCspan (p ++ r) c!":\n" = .ok (a.length, ':' :: (b ++ r)) := by
  obtain ⟨a, b, rfl, ha⟩ := first_split h
  refine ⟨a, b, rfl, ?_⟩
  have e : a ++ ':' :: b ++ r = a ++ ':' :: (b ++ r) := by simp
  rw [e]
  exact skipCspan_append (not_in ha (by simpa using fun h => hn (by simp [h]))) (.inr (by simp))

theorem startsWith_colon {p w : Str} (hp : ':' ∈ p) (hw : ':' ∉ w) (h : startsWith p (w ++ [':']) = false) (r : Str) :
    startsWith (p ++ r) (w ++ [':']) = false := by
  by_contra hc
  rw [Bool.not_eq_false, startsWith_split] at hc
  obtain ⟨t, ht⟩ := hc
  rcases List.append_eq_append_iff.1 ht with ⟨z, h1, h2⟩ | ⟨z, h1, h2⟩
  · rcases List.eq_nil_or_concat z with rfl | ⟨z', c, rfl⟩
    · rw [List.append_nil] at h1
      rw [(startsWith_split _ _).2 ⟨[], by rw [h1]; simp⟩] at h
      exact absurd h (by decide)
    · have : w = p ++ z' := by
        rw [List.concat_eq_append, ← List.append_assoc] at h1
        exact (List.append_inj' h1 rfl).1
      exact hw (by rw [this]; simp [hp])
  · rw [(startsWith_split _ _).2 ⟨z, h1⟩] at h
    exact absurd h (by decide)

theorem path_plain {stop p r : Str} (cursor : Str) (h1 : ∀ c ∈ p, c ∉ stop) (h2 : r = [] ∨ peek r ∈ stop) (hne : p ≠ [])
    (hf : startsWith (p ++ r) c!"file:" = false) : path stop (p ++ r) cursor = .ok (some (anonymizePath p), r) := by
  unfold path filePrefix
  rw [hf, if_neg (by simp), Out.bind_ok, skipCspan_append h1 h2, Out.bind_ok]
  dsimp only
  rw [if_neg (by simpa using hne), strndup, List.take_left]

theorem path_file {stop p r : Str} (h1 : ∀ c ∈ p, c ∉ stop) (h2 : r = [] ∨ peek r ∈ stop) (hne : p ≠ []) :
    path stop (c!"file:" ++ (p ++ r)) (':' :: (p ++ r)) = .ok (some (anonymizePath p), r) := by
  unfold path filePrefix
  rw [(startsWith_split _ _).2 ⟨_, rfl⟩, if_pos rfl]
  show (Out.ok (p ++ r) >>= _) = _
  rw [Out.bind_ok, skipCspan_append h1 h2, Out.bind_ok]
  dsimp only
  rw [if_neg (by simpa using hne), strndup, List.take_left]

theorem jarPrefix_jar (x : Str) : jarPrefix (c!"jar" ++ ':' :: x) (':' :: x) = (do
    let (_, c) ← skipCharCspan x c!":\n"
    if peek c ≠ ':' then .ok (.inl c) else .ok (.inr (c!"!\n", x, c))) := rfl

/-- The address of the class is read. -/
theorem frameUrl_read (u : Url) (h : u.WF) (pre t : Str) (hp1 : '[' ∉ pre) (hp2 : '\n' ∉ pre) (ht : LineEnd t) :
    ∃ b, frameUrl (pre ++ (u.text ++ t)) = .ok (u.classPath, b ++ t) ∧ '\n' ∉ b := by
  have skip : ∀ rest, skipCharCspan (pre ++ (c!" [" ++ rest)) c!"[\n" = .ok (pre.length + 1, '[' :: rest) := by
    intro rest
    have e : pre ++ (c!" [" ++ rest) = (pre ++ c!" ") ++ '[' :: rest := by simp
    rw [e, skipCspan_append (not_in (by simp [hp1]) (by simp [hp2])) (.inr (by simp))]
    simp
  have start : ∀ rest, frameUrl (pre ++ (c!" [" ++ rest)) = (do
      let (_, cursor) ← skipCharCspan rest c!":\n"
      if peek cursor ≠ ':' then pathEnd (none, cursor) else do
      match ← jarPrefix rest cursor with
      | .inl cursor => .ok (none, cursor)
      | .inr (stop, mark, cursor) =>
        let r ← path stop mark cursor
        pathEnd r) := by
    intro rest
    unfold frameUrl
    rw [skip, Out.bind_ok]
    rfl
  cases u with
  | absent =>
    refine ⟨[], ?_, by simp⟩
    unfold frameUrl
    rw [Url.text, List.nil_append, skipCspan_append (not_in hp1 hp2) (LineEnd.mem ht '['), Out.bind_ok]
    dsimp only
    rw [if_pos]
    · rfl
    · rcases ht with rfl | ht
      · decide
      · rw [ht]; decide
  | plain x =>
    obtain ⟨h1, h2⟩ := h
    have e : Url.text (.plain x) ++ t = c!" [" ++ ((x ++ c!"]") ++ t) := by simp [Url.text]
    rw [e, start, skipCspan_append (not_in (by simp [h1]) (by simp [h2])) (LineEnd.mem ht ':'), Out.bind_ok]
    dsimp only
    rw [if_pos]
    · have := pathEnd_other (p := none) (a := []) (t := t) (by simp) ht
      exact this
    · rcases ht with rfl | ht
      · decide
      · rw [ht]; decide
  | file p =>
    obtain ⟨h1, h2, h3⟩ := h
    have e : Url.text (.file p) ++ t = c!" [" ++ (c!"file" ++ ':' :: (p ++ (']' :: t))) := by simp [Url.text]
    rw [e, start, skipCspan_append (a := c!"file") (by decide) (.inr (by simp)), Out.bind_ok]
    dsimp only
    rw [if_neg (by simp)]
    have : jarPrefix (c!"file" ++ ':' :: (p ++ (']' :: t))) (':' :: (p ++ (']' :: t))) =
        .ok (.inr (c!"]\n", c!"file:" ++ (p ++ (']' :: t)), ':' :: (p ++ (']' :: t)))) := rfl
    rw [this, Out.bind_ok]
    dsimp only
    rw [path_file (not_in h2 h3) (.inr (by simp)) h1, Out.bind_ok, pathEnd_bracket]
    exact ⟨c!"]", rfl, by decide⟩
  | other p =>
    obtain ⟨h1, h2, h3, h4, h5⟩ := h
    have e : Url.text (.other p) ++ t = c!" [" ++ (p ++ (']' :: t)) := by simp [Url.text]
    obtain ⟨a, b, -, hs⟩ := first_colon h1 h3 (']' :: t)
    rw [e, start, hs, Out.bind_ok]
    dsimp only
    have hj : startsWith (p ++ ']' :: t) c!"jar:" = false := startsWith_colon (w := c!"jar") h1 (by decide) h4 _
    rw [if_neg (by simp), jarPrefix, hj, if_neg (by simp), Out.bind_ok]
    dsimp only
    rw [path_plain _ (not_in h2 h3) (.inr (by simp)) (by rintro rfl; simp at h1) (startsWith_colon (w := c!"file") h1 (by decide) h5 _), Out.bind_ok,
      pathEnd_bracket]
    exact ⟨c!"]", rfl, by decide⟩
  | jarFile p m =>
    obtain ⟨h1, h2, h3, h4⟩ := h
    have e : Url.text (.jarFile p m) ++ t = c!" [" ++ (c!"jar" ++ ':' :: (c!"file" ++ ':' :: (p ++ ((c!"!" ++ m ++ c!"]") ++ t)))) := by
      simp [Url.text]
    rw [e, start, skipCspan_append (a := c!"jar") (by decide) (.inr (by simp)), Out.bind_ok]
    dsimp only
    rw [if_neg (by simp), jarPrefix_jar, skipCspan_append (a := c!"file") (by decide) (.inr (by simp)), Out.bind_ok]
    dsimp only
    rw [if_neg (by simp), Out.bind_ok]
    dsimp only
    have := path_file (stop := c!"!\n") (r := (c!"!" ++ m ++ c!"]") ++ t) (not_in h2 h3) (.inr (by simp)) h1
    show ∃ b, ((path c!"!\n" (c!"file:" ++ (p ++ ((c!"!" ++ m ++ c!"]") ++ t))) _) >>= _) = _ ∧ _
    rw [this, Out.bind_ok]
    exact pathEnd_other (by simp [h4]) ht
  | jar p m =>
    obtain ⟨h1, h2, h3, h4, h5⟩ := h
    have e : Url.text (.jar p m) ++ t = c!" [" ++ (c!"jar" ++ ':' :: (p ++ ((c!"!" ++ m ++ c!"]") ++ t))) := by
      simp [Url.text]
    obtain ⟨a, b, -, hs⟩ := first_colon h1 h3 ((c!"!" ++ m ++ c!"]") ++ t)
    rw [e, start, skipCspan_append (a := c!"jar") (by decide) (.inr (by simp)), Out.bind_ok]
    dsimp only
    rw [if_neg (by simp), jarPrefix_jar, hs, Out.bind_ok]
    dsimp only
    rw [if_neg (by simp), Out.bind_ok]
    dsimp only
    rw [path_plain _ (not_in h2 h3) (.inr (by simp)) (by rintro rfl; simp at h1) (startsWith_colon (w := c!"file") h1 (by decide) h4 _), Out.bind_ok]
    exact pathEnd_other (by simp [h5]) ht

theorem startsWith_other {f w : Str} {q : Char} (hq : q ∉ w) (h : startsWith f w = false) (r : Str) : startsWith (f ++ q :: r) w = false := by
  by_contra hc
  rw [Bool.not_eq_false, startsWith_split] at hc
  obtain ⟨t, ht⟩ := hc
  rcases List.append_eq_append_iff.1 ht with ⟨z, h1, h2⟩ | ⟨z, h1, h2⟩
  · rcases z with _ | ⟨c, z⟩
    · rw [List.append_nil] at h1
      rw [(startsWith_split _ _).2 ⟨[], by rw [h1]; simp⟩] at h
      exact absurd h (by decide)
    · rw [List.cons_append] at h2
      injection h2 with h2 _
      exact hq (by rw [h1, h2]; simp)
  · rw [(startsWith_split _ _).2 ⟨z, h1⟩] at h
    exact absurd h (by decide)

theorem lineNumber_read (c : Call) (r : Str) (hl : ∀ n, c.line = some n → n < 2 ^ 32) :
    lineNumber (c.lineText ++ ')' :: r) = .ok (c.line.getD 0, ')' :: r) := by
  obtain ⟨name, src, line, url⟩ := c
  cases line with
  | none => rfl
  | some n =>
    obtain ⟨h1, h2, h3⟩ := natDec_spec n
    unfold lineNumber
    rw [show Call.lineText ⟨name, src, some n, url⟩ = ':' :: natDec n from rfl, List.cons_append, if_pos (show peek (':' :: _) = ':' from rfl)]
    show (Out.ok (natDec n ++ ')' :: r) >>= _) = _
    rw [Out.bind_ok, parseUint32_digits h1 h2 (by rw [h3]; exact hl n rfl) (by rw [peek_cons]; decide), Out.bind_ok, h3]

theorem source_step (a b : Str) (h1 : ':' ∉ a) (h2 : ')' ∉ a) (h3 : '\n' ∉ a) (hne : a ≠ []) (hb : peek b ∈ c!":)\n") :
    source ('(' :: (a ++ b)) = (do
      let (line, s) ← lineNumber b
      .ok (startsWith (a ++ b) nativeMark,
        if !startsWith (a ++ b) nativeMark && !startsWith (a ++ b) unknownMark then some (anonymizePath a) else none, line, s)) := by
  unfold source
  rw [if_neg (by simp)]
  show (Out.ok (a ++ b) >>= _) = _
  rw [Out.bind_ok, skipCspan_append _ (.inr hb), Out.bind_ok]
  · dsimp only
    have : decide (a.length ≠ 0) = true := by simpa using hne
    rw [this, Bool.true_and, Bool.true_and, strndup, List.take_left]
  · intro c hc
    simp only [List.mem_cons, List.not_mem_nil, or_false, not_or]
    exact ⟨by rintro rfl; exact h1 hc, by rintro rfl; exact h2 hc, by rintro rfl; exact h3 hc⟩

theorem source_read (c : Call) (h : c.WF) (r : Str) :
    source ('(' :: (c.source.text ++ (c.lineText ++ ')' :: r))) = .ok (c.frame.isNative, c.frame.fileName, c.frame.fileLine, ')' :: r) := by
  obtain ⟨name, src, line, url⟩ := c
  have hb : ∃ q t, (Call.lineText ⟨name, src, line, url⟩ ++ ')' :: r) = q :: t ∧ q ∈ c!":)" := by
    cases line with
    | none => exact ⟨_, _, rfl, by simp⟩
    | some n => exact ⟨_, _, rfl, by simp⟩
  have hl : lineNumber (Call.lineText ⟨name, src, line, url⟩ ++ ')' :: r) = .ok (line.getD 0, ')' :: r) := lineNumber_read _ r h.line
  obtain ⟨q, t, he, hq⟩ := hb
  have hq' : peek (Call.lineText ⟨name, src, line, url⟩ ++ ')' :: r) ∈ c!":)\n" := by
    rw [he, peek_cons]
    simp only [List.mem_cons, List.not_mem_nil, or_false] at hq ⊢
    tauto
  have hq1 : q ∉ nativeMark ∧ q ∉ unknownMark := by
    simp only [List.mem_cons, List.not_mem_nil, or_false] at hq
    rcases hq with rfl | rfl <;> decide
  cases src with
  | native =>
    dsimp only [Source.text]
    rw [source_step c!"Native Method" _ (by decide) (by decide) (by decide) (by decide) hq', hl, Out.bind_ok]
    rfl
  | unknown =>
    dsimp only [Source.text]
    rw [source_step c!"Unknown Source" _ (by decide) (by decide) (by decide) (by decide) hq', hl, Out.bind_ok]
    rfl
  | file f =>
    obtain ⟨h1, h2, h3, h4, h5, h6⟩ := h.source
    have m1 := startsWith_other hq1.1 h5 t
    have m2 := startsWith_other hq1.2 h6 t
    rw [← he] at m1 m2
    dsimp only [Source.text]
    rw [source_step _ _ h2 h3 h4 h1 hq', hl, Out.bind_ok]
    dsimp only
    rw [m1, m2]
    rfl

theorem strstr_first {pre needle rest : Str} {c : Char} {w : Str} (hn : needle = c :: w) (hc : c ∉ pre) (hnul : NoNul needle) :
    (strstrLocation (pre ++ needle ++ rest) needle).1 = some (needle ++ rest) := by
  rw [(C28_strstr _ needle (by rw [hn]; simp) hnul).1 pre rest rfl]
  intro pre' rest' he
  by_contra hlt
  have h1 : (pre ++ needle ++ rest)[pre'.length]? = some c := by
    rw [he, hn]; simp
  have h2 : (pre ++ needle ++ rest)[pre'.length]? = pre[pre'.length]? := by
    rw [List.append_assoc, List.getElem?_append_left (by omega)]
  rw [h2] at h1
  exact hc (List.mem_of_getElem? h1)

theorem lineEnd_read {b t : Str} (hb : '\n' ∉ b) (ht : LineEnd t) : lineEnd (b ++ t) = .ok (t.drop 1) := by
  unfold lineEnd
  dsimp only
  rw [ht.nul b hb, List.drop_left]
  rcases ht with rfl | ht
  · rfl
  · cases t with
    | nil => exact absurd ht (by decide)
    | cons c t => rw [if_pos ht]; rfl

/-- C70: a line of a Java stack trace, with any indentation, is read with its method, source, line and class path, and the line is
left behind. -/
theorem C70_frame (c : Call) (h : c.WF) (ind t : Str) (hi : ∀ x ∈ ind, isSpace x = true) (ht : LineEnd t) :
    parseFrame (ind ++ c.text ++ t) = .ok (some (c.frame, t.drop 1)) := by
  have e : ind ++ c.text ++ t = ind ++ c!"at" ++ (' ' :: (c.name ++ '(' :: (c.source.text ++ (c.lineText ++ ')' :: (c.url.text ++ t))))) := by
    simp [Call.text]
  unfold parseFrame
  rw [e, strstr_first (c := 'a') rfl (fun hm => absurd (hi _ hm) (by decide)) (by simp [NoNul])]
  dsimp only
  have hw : skipWs ((c!"at" ++ (' ' :: (c.name ++ '(' :: (c.source.text ++ (c.lineText ++ ')' :: (c.url.text ++ t)))))).drop 2) =
      c.name ++ '(' :: (c.source.text ++ (c.lineText ++ ')' :: (c.url.text ++ t))) := by
    refine skipWs_append (w := c!" ") (by decide) ?_
    show isSpace (peek (c.name ++ _)) = false
    by_cases hn : c.name = []
    · rw [hn]; rfl
    · rw [peek_append hn]; exact h.blank
  rw [hw, skipCspan_append (not_in h.paren h.newline) (.inr (by simp)), Out.bind_ok]
  dsimp only
  rw [source_read c h, Out.bind_ok]
  dsimp only
  obtain ⟨b, hb, hbn⟩ := frameUrl_read c.url h.url c!")" t (by decide) (by decide) ht
  rw [show ')' :: (c.url.text ++ t) = c!")" ++ (c.url.text ++ t) from rfl, hb, Out.bind_ok]
  dsimp only
  rw [lineEnd_read hbn ht, Out.bind_ok, strndup, List.take_left]
  have : (if c.name.length = 0 then none else some c.name) = (if c.name = [] then none else some c.name) := by
    simp [List.length_eq_zero_iff]
  rw [this]
  rfl

/-! ## Frames printed by satyr -/

/-- The frames whose text is not ambiguous. -/
structure Clean (f : JavaFrame) : Prop where
  method : f.isException = false
  message : f.message = none
  name : ∀ n, f.name = some n → n ≠ [] ∧ isSpace (peek n) = false ∧ '(' ∉ n ∧ '\n' ∉ n
  native : f.isNative = true → f.fileName = none
  source : ∀ g, f.fileName = some g →
    g ≠ [] ∧ ':' ∉ g ∧ ')' ∉ g ∧ '\n' ∉ g ∧ startsWith g c!"Native Method" = false ∧ startsWith g c!"Unknown Source" = false
  line : f.fileLine < 2 ^ 32
  path : ∀ p, f.classPath = some p →
    ('/' ∈ p ∨ ':' ∈ p) ∧ ']' ∉ p ∧ '\n' ∉ p ∧ startsWith p c!"jar:" = false ∧ startsWith p c!"file:" = false

/-- The line of a stack trace that a printed frame is. -/
def asCall (f : JavaFrame) : Call :=
  { name := f.name.getD []
    source := if f.isNative = true then .native else match f.fileName with | none => .unknown | some g => .file g
    line := if f.fileLine ≠ 0 then some f.fileLine else none
    url := match f.classPath with
      | none => .plain c!"unknown"
      | some p => if strchrnulI ':' p > strchrnulI '/' p then .file p else .other p }

theorem print_asCall (f : JavaFrame) (h : f.isException = false) : printFrame f = c!"\t" ++ (asCall f).text := by
  obtain ⟨name, file, line, path, native, exc, msg⟩ := f
  dsimp only at h
  subst h
  have h1 : printPath path = (asCall ⟨name, file, line, path, native, false, msg⟩).url.text := by
    cases path with
    | none => rfl
    | some p => dsimp only [asCall, printPath]; split <;> rfl
  have h2 : (if native = true then nativeMark else file.getD unknownMark) = (asCall ⟨name, file, line, path, native, false, msg⟩).source.text := by
    cases native with
    | true => rfl
    | false => cases file <;> rfl
  have h3 : (if line ≠ 0 then ':' :: natDec line else []) = (asCall ⟨name, file, line, path, native, false, msg⟩).lineText := by
    dsimp only [Call.lineText, asCall]
    split <;> rfl
  unfold printFrame Call.text
  rw [if_neg (by simp), ← h1, ← h2, ← h3]
  simp [asCall]

theorem asCall_wf (f : JavaFrame) (h : Clean f) : (asCall f).WF := by
  obtain ⟨name, file, line, path, native, exc, msg⟩ := f
  refine ⟨?_, ?_, ?_, ?_, ?_, ?_⟩
  · cases name with
    | none => rfl
    | some n => exact (h.name n rfl).2.1
  · cases name with
    | none => simp [asCall]
    | some n => exact (h.name n rfl).2.2.1
  · cases name with
    | none => simp [asCall]
    | some n => exact (h.name n rfl).2.2.2
  · cases native with
    | true => trivial
    | false =>
      cases file with
      | none => trivial
      | some g => exact h.source g rfl
  · intro n hn
    dsimp only [asCall] at hn
    split at hn
    · cases hn; exact h.line
    · cases hn
  · cases path with
    | none => exact ⟨by decide, by decide⟩
    | some p =>
      obtain ⟨h1, h2, h3, h4, h5⟩ := h.path p rfl
      dsimp only [asCall]
      split
      · exact ⟨by rintro rfl; simp at h1, h2, h3⟩
      · rename_i hlt
        refine ⟨?_, h2, h3, h4, h5⟩
        by_contra hc
        have hs : '/' ∈ p := by tauto
        obtain ⟨a, b, rfl, ha⟩ := first_split hs
        rw [strchrnulI_all hc, strchrnulI_append ha] at hlt
        exact hlt (by len)

theorem asCall_frame (f : JavaFrame) (h : Clean f) :
    (asCall f).frame = { f with fileName := f.fileName.map anonymizePath, classPath := f.classPath.map anonymizePath } := by
  obtain ⟨name, file, line, path, native, exc, msg⟩ := f
  have h1 := h.method
  have h2 := h.message
  dsimp only at h1 h2
  subst h1 h2
  have e1 : (asCall ⟨name, file, line, path, native, false, none⟩).frame.name = name := by
    cases name with
    | none => rfl
    | some n => dsimp only [Call.frame, asCall, Option.getD_some]; rw [if_neg (h.name n rfl).1]
  have e2 : (asCall ⟨name, file, line, path, native, false, none⟩).frame.classPath = path.map anonymizePath := by
    cases path with
    | none => rfl
    | some p => dsimp only [Call.frame, asCall]; split <;> rfl
  have e3 : (asCall ⟨name, file, line, path, native, false, none⟩).frame.fileLine = line := by
    dsimp only [Call.frame, asCall]
    split
    · rfl
    · rename_i h0; exact (not_not.1 h0).symm
  have e4 : (asCall ⟨name, file, line, path, native, false, none⟩).frame.fileName = file.map anonymizePath := by
    cases native with
    | true => have := h.native rfl; dsimp only at this; subst this; rfl
    | false => cases file <;> rfl
  have e5 : (asCall ⟨name, file, line, path, native, false, none⟩).frame.isNative = native := by
    cases native with
    | true => rfl
    | false => cases file <;> rfl
  generalize hg : (asCall ⟨name, file, line, path, native, false, none⟩).frame = g at e1 e2 e3 e4 e5
  have e6 : g.isException = false := by rw [← hg]; rfl
  have e7 : g.message = none := by rw [← hg]; rfl
  obtain ⟨n', f', l', p', t', x', m'⟩ := g
  dsimp only at e1 e2 e3 e4 e5 e6 e7
  subst e1 e2 e3 e4 e5 e6 e7
  rfl

/-- C54: a method frame printed by `sr_java_frame_append_to_str` is read back, except that user names are replaced in its file
name and its class path. -/
theorem C54_read_back (f : JavaFrame) (h : Clean f) (t : Str) (ht : LineEnd t) :
    parseFrame (printFrame f ++ t) =
      .ok (some ({ f with fileName := f.fileName.map anonymizePath, classPath := f.classPath.map anonymizePath }, t.drop 1)) := by
  rw [print_asCall f h.method, C70_frame (asCall f) (asCall_wf f h) c!"\t" t (by decide) ht, asCall_frame f h]

/-- Not a path below the home directory of a user. -/
def NotHome (p : Str) : Prop := ¬ ∃ user rest, '/' ∉ user ∧ p = c!"/home/" ++ user ++ '/' :: rest

/-- C54: a method frame printed by `sr_java_frame_append_to_str` is read back. Missing: frames whose text is ambiguous, see the
refutations below. -/
theorem C54_round_trip_partial (f : JavaFrame) (h : Clean f) (h1 : ∀ p, f.fileName = some p → NotHome p)
    (h2 : ∀ p, f.classPath = some p → NotHome p) (t : Str) (ht : LineEnd t) :
    parseFrame (printFrame f ++ t) = .ok (some (f, t.drop 1)) := by
  rw [C54_read_back f h t ht]
  have e1 : f.fileName.map anonymizePath = f.fileName := by
    cases hf : f.fileName with
    | none => rfl
    | some p => exact congrArg some (C31_keeps p (h1 p hf))
  have e2 : f.classPath.map anonymizePath = f.classPath := by
    cases hf : f.classPath with
    | none => rfl
    | some p => exact congrArg some (C31_keeps p (h2 p hf))
  rw [e1, e2]

example : Clean ⟨some c!"SimpleTest.main", some c!"SimpleTest.java", 36, some c!"/usr/lib/java/foo.class", false, false, none⟩ ∧
    Clean ⟨some c!"sun.reflect.NativeMethodAccessorImpl.invoke0", none, 0, some c!"http://localhost/a.jar", true, false, none⟩ ∧
    Clean ⟨none, none, 0, none, false, false, none⟩ := by
  refine ⟨⟨rfl, rfl, ?_, ?_, ?_, by decide, ?_⟩, ⟨rfl, rfl, ?_, ?_, ?_, by decide, ?_⟩, ⟨rfl, rfl, ?_, ?_, ?_, by decide, ?_⟩⟩
  all_goals first
    | (intro x h; cases h; done)
    | (intro x h; cases h; decide)
    | (intro h; cases h; done)
    | (intro h; rfl)

/-- C54 does not hold for a class path that has neither a colon nor a slash: it is lost. -/
theorem C54_not_plain_path (p : Str) (h1 : ':' ∉ p) (h2 : '/' ∉ p) (h3 : '\n' ∉ p) :
    parseFrame (printFrame { name := some c!"f", fileName := some c!"A.java", fileLine := 1, classPath := some p }) =
      .ok (some ({ name := some c!"f", fileName := some c!"A.java", fileLine := 1, classPath := none }, [])) := by
  have hp : printPath (some p) = Url.text (.plain p) := by
    rw [printPath, strchrnulI_all h1, strchrnulI_all h2, if_neg (by omega)]; simp [Url.text]
  have := C70_frame ⟨c!"f", .file c!"A.java", some 1, .plain p⟩
    ⟨rfl, (by decide : '(' ∉ c!"f"), (by decide : '\n' ∉ c!"f"), (by simp only [Source.WF]; decide : Source.WF (.file c!"A.java")),
      by rintro n ⟨⟩; decide, ⟨h1, h3⟩⟩ c!"\t" [] (by decide) (.inl rfl)
  rw [List.append_nil] at this
  refine Eq.trans (congrArg parseFrame ?_) this
  unfold printFrame
  rw [if_neg (by simp), hp]
  rfl

example : ':' ∉ c!"foo.jar" ∧ '/' ∉ c!"foo.jar" := by decide

/-- C54 does not hold for class paths that start with `jar:`: what follows is cut. -/
theorem C54_not_jar : ∃ f : JavaFrame, f.classPath = some c!"jar:http://h/a.jar" ∧
    parseFrame (printFrame f) = .ok (some ({ f with classPath := some c!"http://h/a.jar]" }, [])) :=
  ⟨{ name := some c!"f", fileName := some c!"A.java", fileLine := 1, classPath := some c!"jar:http://h/a.jar" }, rfl, by decide +kernel⟩

/-! ## Exceptions and threads -/

/-- What the JVM prints after the calls of an exception that caused another one: the number of calls in common, and, indented, the
exceptions that were suppressed. -/
structure More where
  count : Nat
  suppressed : Option (Str × List Str)

def suppressedText : Option (Str × List Str) → Str
  | none => []
  | some (first, lines) => c!"\tSuppressed: " ++ (first ++ c!"\n") ++ lines.flatMap fun l => c!"\t" ++ l ++ c!"\n"

def More.text (m : More) : Str := c!"\t... " ++ (natDec m.count ++ c!" more\n") ++ suppressedText m.suppressed

def More.WF (m : More) : Prop := ∀ x, m.suppressed = some x → '\n' ∉ x.1 ∧ ∀ l ∈ x.2, '\n' ∉ l

/-- An exception as the JVM prints it. -/
structure Exc where
  name : Str
  message : Option Str
  calls : List Call
  more : Option More

def messageText : Option Str → Str
  | none => []
  | some m => c!": " ++ m

def callsText (l : List Call) : Str := l.flatMap fun c => c!"\t" ++ c.text ++ c!"\n"

def moreText : Option More → Str
  | none => []
  | some m => m.text

def Exc.text (e : Exc) : Str := e.name ++ (messageText e.message ++ '\n' :: (callsText e.calls ++ moreText e.more))

structure Exc.WF (e : Exc) : Prop where
  nonempty : e.name ≠ []
  blank : NoSpace e.name
  colon : ':' ∉ e.name
  message : ∀ m, e.message = some m → m ≠ [] ∧ isSpace (peek m) = false ∧ '\n' ∉ m
  calls : ∀ c ∈ e.calls, c.WF
  more : ∀ m, e.more = some m → m.WF

/-- The frame that stands for the exception, and the frames of its calls. -/
def Exc.frames (e : Exc) : List JavaFrame := { name := some e.name, isException := true, message := e.message } :: e.calls.map Call.frame

/-- A chain of exceptions: each is caused by the next one. -/
def chainText : Exc → List Exc → Str
  | e, [] => e.text
  | e, d :: l => e.text ++ (c!"Caused by: " ++ chainText d l)

theorem exceptionHead_read (e : Exc) (h : e.WF) (ws rest : Str) (hw : ∀ c ∈ ws, isSpace c = true) :
    exceptionHead (ws ++ (e.name ++ (messageText e.message ++ '\n' :: rest))) =
      .ok (some ({ name := some e.name, isException := true, message := e.message }, rest)) := by
  obtain ⟨name, msg, calls, more⟩ := e
  have hn := h.nonempty
  have hb := h.blank
  have hc := h.colon
  have hm := h.message
  dsimp only at hn hb hc hm ⊢
  unfold exceptionHead
  rw [skipWs_append hw (hb.peek hn _)]
  dsimp only
  have hset : ∀ c ∈ name, c ∉ c!": \t\n" := by
    intro c hx
    have h1 := hb c hx
    simp only [List.mem_cons, List.not_mem_nil, or_false, not_or]
    refine ⟨by rintro rfl; exact hc hx, ?_, ?_, ?_⟩ <;> (rintro rfl; exact absurd h1 (by decide))
  have hl : name.length ≠ 0 := by simpa using hn
  cases msg with
  | none =>
    rw [messageText, List.nil_append, skipCspan_append hset (.inr (by simp)), Out.bind_ok]
    dsimp only
    rw [if_neg hl, message, if_neg (by simp), show skipCharCspan ('\n' :: rest) c!"\n" = .ok (0, '\n' :: rest) from
      skipCspan_append (a := []) (by simp) (.inr (by simp)), Out.bind_ok]
    show (Out.ok (none, '\n' :: rest) >>= _) = _
    rw [Out.bind_ok, strndup, List.take_left]
    rfl
  | some m =>
    obtain ⟨h1, h2, h3⟩ := hm m rfl
    rw [messageText, List.append_assoc, skipCspan_append hset (.inr (by simp)), Out.bind_ok]
    dsimp only
    rw [if_neg hl, message, if_pos (show peek (c!": " ++ _) = ':' from rfl)]
    show ((Out.ok (c!" " ++ (m ++ '\n' :: rest)) >>= _) >>= _) = _
    rw [Out.bind_ok]
    dsimp only
    rw [skipWs_append (by decide) (by rw [peek_append h1]; exact h2), skipCspan_append (fun c hc => by
      simp only [List.mem_cons, List.not_mem_nil, or_false]
      rintro rfl
      exact h3 hc) (.inr (by simp)), Out.bind_ok]
    dsimp only
    rw [Out.bind_ok, if_pos (by simpa using h1), strndup, strndup, List.take_left, List.take_left]
    rfl

theorem call_start (c : Call) (r : Str) : skipWs (c!"\t" ++ (c.text ++ r)) = c.text ++ r :=
  skipWs_append (by decide) rfl

theorem framesLoop_calls (l : List Call) (h : ∀ c ∈ l, c.WF) (rest : Str) : ∀ (fuel : Nat) (acc : List JavaFrame),
    (callsText l ++ rest).length < fuel → ∃ fuel', rest.length < fuel' ∧
      framesLoop fuel (callsText l ++ rest) acc = framesLoop fuel' rest (acc ++ l.map Call.frame) := by
  induction l with
  | nil =>
    intro fuel acc hf
    exact ⟨fuel, hf, by simp [callsText]⟩
  | cons c l ih =>
    intro fuel acc hf
    have e : callsText (c :: l) ++ rest = c!"\t" ++ (c.text ++ ('\n' :: (callsText l ++ rest))) := by simp [callsText]
    rw [e] at hf ⊢
    cases fuel with
    | zero => omega
    | succ fuel =>
      have hlen : (callsText l ++ rest).length < fuel := by
        simp only [List.length_append, List.length_cons] at hf ⊢
        omega
      obtain ⟨fuel', h1, h2⟩ := ih (fun c hc => h c (by simp [hc])) fuel (acc ++ [c.frame]) hlen
      refine ⟨fuel', h1, ?_⟩
      rw [framesLoop, if_neg (by rw [List.cons_append, peek_cons]; decide), call_start]
      have e1 : startsWith (c.text ++ ('\n' :: (callsText l ++ rest))) c!"... " = false := rfl
      have e2 : startsWith (c.text ++ ('\n' :: (callsText l ++ rest))) c!"Suppressed: " = false := rfl
      have e3 : startsWith (c.text ++ ('\n' :: (callsText l ++ rest))) c!"Caused by: " = false := rfl
      have e4 := C70_frame c (h c (by simp)) [] ('\n' :: (callsText l ++ rest)) (by simp) (.inr rfl)
      rw [List.nil_append] at e4
      dsimp only
      rw [e1, e2, e3, if_neg (by simp), if_neg (by simp), e4, Out.bind_ok]
      dsimp only
      rw [List.drop_one, List.tail_cons, h2]
      simp

theorem skipLine (a rest : Str) (ha : '\n' ∉ a) (l : Loc) : ∃ x, skipToNextLine (a ++ '\n' :: rest) l = .ok (true, rest, x) := by
  unfold skipToNextLine
  rw [skipCspan_append (fun c hc => by
    simp only [List.mem_cons, List.not_mem_nil, or_false]
    rintro rfl
    exact ha hc) (.inr (by simp)), Out.bind_ok]
  exact ⟨_, rfl⟩

theorem skipIndented_read (lines : List Str) (h : ∀ l ∈ lines, '\n' ∉ l) (rest : Str) (hr : isSpace (peek rest) = false) : ∀ fuel,
    ((lines.flatMap fun l => c!"\t" ++ l ++ c!"\n") ++ rest).length < fuel →
    skipIndented fuel ((lines.flatMap fun l => c!"\t" ++ l ++ c!"\n") ++ rest) = .ok rest := by
  induction lines with
  | nil =>
    intro fuel hf
    cases fuel with
    | zero => omega
    | succ fuel =>
      show skipIndented (fuel + 1) rest = _
      rw [skipIndented, if_neg (by simp [hr])]
  | cons l lines ih =>
    intro fuel hf
    cases fuel with
    | zero => omega
    | succ fuel =>
      have e : ((l :: lines).flatMap (fun l => c!"\t" ++ l ++ c!"\n")) ++ rest =
          (c!"\t" ++ l) ++ '\n' :: ((lines.flatMap fun l => c!"\t" ++ l ++ c!"\n") ++ rest) := by simp
      rw [e] at hf ⊢
      obtain ⟨x, hx⟩ := skipLine (c!"\t" ++ l) ((lines.flatMap fun l => c!"\t" ++ l ++ c!"\n") ++ rest)
        (by have := h l (by simp); simp [this]) Loc.init
      rw [skipIndented, if_pos (show isSpace (peek (c!"\t" ++ l ++ _)) = true from rfl), hx, Out.bind_ok]
      dsimp only
      refine ih (fun l hl => h l (by simp [hl])) fuel ?_
      simp only [List.length_append, List.length_cons] at hf ⊢
      omega

/-- After the calls in common and the suppressed exceptions comes the exception that is the cause, or the end. -/
theorem causedBy_more (m : More) (h : m.WF) (rest : Str) (hr : isSpace (peek rest) = false) (hs : startsWith rest c!"Suppressed: " = false) :
    causedBy (.done (skipWs (m.text ++ rest))) = if startsWith rest c!"Caused by: " = true then .ok (.inr (rest.drop 11)) else .ok (.inl rest) := by
  have e0 : skipWs (m.text ++ rest) = (c!"... " ++ (natDec m.count ++ c!" more")) ++ '\n' :: (suppressedText m.suppressed ++ rest) := by
    have : m.text ++ rest = c!"\t" ++ ((c!"... " ++ (natDec m.count ++ c!" more")) ++ '\n' :: (suppressedText m.suppressed ++ rest)) := by
      simp [More.text]
    rw [this]
    exact skipWs_append (by decide) rfl
  have hn : '\n' ∉ c!"... " ++ (natDec m.count ++ c!" more") := by
    have : '\n' ∉ natDec m.count := fun hm => absurd ((natDec_spec m.count).1 _ hm) (by decide)
    simp [this]
  obtain ⟨x, hx⟩ := skipLine _ (suppressedText m.suppressed ++ rest) hn Loc.init
  rw [causedBy, e0, hx, Out.bind_ok]
  dsimp only
  have key : skipSuppressed (skipWs (suppressedText m.suppressed ++ rest)) = .ok rest := by
    cases hm : m.suppressed with
    | none =>
      rw [suppressedText, List.nil_append, skipWs_of hr, skipSuppressed, hs, if_neg (by simp)]
    | some s =>
      obtain ⟨first, lines⟩ := s
      obtain ⟨h1, h2⟩ := h _ hm
      have e : suppressedText (some (first, lines)) ++ rest =
          c!"\t" ++ ((c!"Suppressed: " ++ first) ++ '\n' :: ((lines.flatMap fun l => c!"\t" ++ l ++ c!"\n") ++ rest)) := by
        simp [suppressedText]
      obtain ⟨x, hx⟩ := skipLine (c!"Suppressed: " ++ first) ((lines.flatMap fun l => c!"\t" ++ l ++ c!"\n") ++ rest)
        (by simpa using h1) Loc.init
      rw [e, skipWs_append (by decide) rfl, skipSuppressed, if_pos, hx, Out.bind_ok]
      · exact skipIndented_read lines h2 rest hr _ (by omega)
      · rfl
  rw [key, Out.bind_ok]

theorem framesLoop_end (fuel : Nat) (acc : List JavaFrame) (h : 0 < fuel) : framesLoop fuel [] acc = .ok (some (acc, .text [])) := by
  cases fuel with
  | zero => omega
  | succ fuel => rfl

theorem framesLoop_cause (fuel : Nat) (rest : Str) (acc : List JavaFrame) (h : 0 < fuel) :
    framesLoop fuel (c!"Caused by: " ++ rest) acc = .ok (some (acc, .cause (c!"Caused by: " ++ rest))) := by
  cases fuel with
  | zero => omega
  | succ fuel => rfl

theorem framesLoop_more (fuel : Nat) (m : More) (rest : Str) (acc : List JavaFrame) (h : 0 < fuel) :
    framesLoop fuel (m.text ++ rest) acc = .ok (some (acc, .done (skipWs (m.text ++ rest)))) := by
  cases fuel with
  | zero => omega
  | succ fuel => rfl

/-- A chain of exceptions is read: innermost first, each followed by its calls. -/
theorem parseException_read (l : List Exc) : ∀ (e : Exc) (ws : Str) (fuel : Nat), e.WF → (∀ d ∈ l, d.WF) → (∀ c ∈ ws, isSpace c = true) →
    l.length < fuel → parseException fuel (ws ++ chainText e l) = .ok (some ((e :: l).reverse.flatMap Exc.frames, [])) := by
  induction l with
  | nil =>
    intro e ws fuel he _ hw hf
    cases fuel with
    | zero => omega
    | succ fuel =>
      rw [chainText, Exc.text, parseException, exceptionHead_read e he ws _ hw, Out.bind_ok]
      dsimp only
      obtain ⟨fuel', h1, h2⟩ := framesLoop_calls e.calls he.calls (moreText e.more) _ [] (Nat.lt_succ_self _)
      rw [h2, List.nil_append]
      cases hm : e.more with
      | none =>
        rw [moreText, framesLoop_end _ _ (by omega), Out.bind_ok]
        simp [causedBy, Exc.frames, Out.bind_ok]
      | some m =>
        have := framesLoop_more fuel' m [] (e.calls.map Call.frame) (by omega)
        rw [List.append_nil] at this
        rw [moreText, this, Out.bind_ok]
        dsimp only
        have hc := causedBy_more m (he.more m hm) [] rfl rfl
        rw [List.append_nil] at hc
        rw [hc, if_neg (show ¬ startsWith [] c!"Caused by: " = true by decide), Out.bind_ok]
        simp [Exc.frames]
  | cons d l ih =>
    intro e ws fuel he hd hw hf
    cases fuel with
    | zero => omega
    | succ fuel =>
      have ih := ih d [] fuel (hd d (by simp)) (fun x hx => hd x (by simp [hx])) (by simp) (by simp only [List.length_cons] at hf; omega)
      rw [List.nil_append] at ih
      have et : chainText e (d :: l) = e.name ++ (messageText e.message ++ '\n' :: (callsText e.calls ++
          (moreText e.more ++ (c!"Caused by: " ++ chainText d l)))) := by
        simp [chainText, Exc.text]
      rw [et, parseException, exceptionHead_read e he ws _ hw, Out.bind_ok]
      dsimp only
      obtain ⟨fuel', h1, h2⟩ := framesLoop_calls e.calls he.calls (moreText e.more ++ (c!"Caused by: " ++ chainText d l)) _ [] (Nat.lt_succ_self _)
      rw [h2, List.nil_append]
      have fin : ∀ x : Ending, causedBy x = .ok (.inr (chainText d l)) → ((Out.ok (some (e.calls.map Call.frame, x)) : Out _) >>= fun r =>
          match r with
          | none => Out.ok none
          | some (frames, ending) => do
            match ← causedBy ending with
            | .inl s => .ok (some ({ name := some e.name, isException := true, message := e.message } :: frames, s))
            | .inr s =>
              match ← parseException fuel s with
              | none => .ok none
              | some (inner, s) => .ok (some (inner ++ { name := some e.name, isException := true, message := e.message } :: frames, s))) =
          Out.ok (some ((e :: d :: l).reverse.flatMap Exc.frames, [])) := by
        intro x hx
        rw [Out.bind_ok]
        dsimp only
        rw [hx, Out.bind_ok]
        dsimp only
        rw [ih, Out.bind_ok]
        simp [Exc.frames]
      cases hm : e.more with
      | none =>
        rw [moreText, List.nil_append, framesLoop_cause _ _ _ (by omega)]
        exact fin _ rfl
      | some m =>
        rw [moreText, framesLoop_more _ _ _ _ (by omega)]
        refine fin _ ?_
        rw [causedBy_more m (he.more m hm) (c!"Caused by: " ++ chainText d l) rfl rfl, if_pos]
        · rfl
        · rfl

/-- The stack trace of a thread as the JVM prints it. -/
def threadText (thread : Option Str) (e : Exc) (l : List Exc) : Str :=
  (match thread with | none => [] | some n => c!"Exception in thread \"" ++ n ++ c!"\" ") ++ chainText e l

theorem chain_length (e : Exc) (l : List Exc) : l.length ≤ (chainText e l).length := by
  induction l generalizing e with
  | nil => simp
  | cons d l ih =>
    have := ih d
    simp only [chainText, List.length_append, List.length_cons]
    omega

/-- C70: from the stack trace of a thread as the JVM prints it, with or without the name of the thread, any number of exceptions each
caused by the next one, calls in common and exceptions that are suppressed in one that is not the first, exactly the name of the thread,
the exceptions with their messages, and their calls are read, innermost exception first. -/
theorem C70_read_partial (thread : Option Str) (e : Exc) (l : List Exc) (ht : ∀ n, thread = some n → '"' ∉ n ∧ '\n' ∉ n)
    (h : ∀ d ∈ e :: l, d.WF) :
    parseThread (threadText thread e l) = .ok (some (⟨thread, (e :: l).reverse.flatMap Exc.frames⟩, [])) := by
  have he : e.WF := h e (by simp)
  have hl : ∀ d ∈ l, d.WF := fun d hd => h d (by simp [hd])
  have hcl := chain_length e l
  unfold parseThread
  cases thread with
  | none =>
    have : threadName (threadText none e l) = .ok (some (none, chainText e l)) := by
      have hs : skipString (chainText e l) c!"Exception in thread \"" = (0, chainText e l) := by
        refine skipString_not ?_
        by_contra hc
        rw [Bool.not_eq_false, startsWith_split] at hc
        obtain ⟨t, ht⟩ := hc
        have hch : ∃ r, chainText e l = e.name ++ r ∧ ∃ c u, r = c :: u ∧ (c = ':' ∨ c = '\n') := by
          have : ∃ r, chainText e l = e.text ++ r := by cases l <;> simp [chainText]
          obtain ⟨r, hr⟩ := this
          rw [hr, Exc.text, List.append_assoc]
          refine ⟨_, rfl, ?_⟩
          cases e.message with
          | none => exact ⟨_, _, rfl, .inr rfl⟩
          | some m => exact ⟨_, _, rfl, .inl rfl⟩
        obtain ⟨r, hr, c, u, rfl, hc⟩ := hch
        rw [hr] at ht
        have e1 : c!"Exception in thread \"" ++ t = c!"Exception" ++ ' ' :: (c!"in thread \"" ++ t) := rfl
        rw [e1] at ht
        rcases List.append_eq_append_iff.1 ht with ⟨z, h1, h2⟩ | ⟨z, h1, h2⟩
        · rcases z with _ | ⟨z0, z⟩
          · rw [List.nil_append] at h2
            injection h2 with h2 _
            rcases hc with rfl | rfl <;> exact absurd h2 (by decide)
          · rw [List.cons_append] at h2
            injection h2 with h2 _
            have hm : c ∈ c!"Exception" := by rw [h1, h2]; simp
            rcases hc with rfl | rfl <;> exact absurd hm (by decide)
        · rcases z with _ | ⟨z0, z⟩
          · rw [List.nil_append] at h2
            injection h2 with h2 _
            rcases hc with rfl | rfl <;> exact absurd h2 (by decide)
          · rw [List.cons_append] at h2
            injection h2 with h2 _
            have := he.blank ' ' (by rw [h1, ← h2]; simp)
            exact absurd this (by decide)
      unfold threadName threadText
      dsimp only
      rw [List.nil_append, hs]
      rfl
    rw [this, Out.bind_ok]
    dsimp only
    have hp := parseException_read l e [] ((chainText e l).length + 1) he hl (by simp) (by omega)
    rw [List.nil_append] at hp
    rw [hp, Out.bind_ok]
  | some n =>
    obtain ⟨h1, h2⟩ := ht n rfl
    have : threadName (threadText (some n) e l) = .ok (some (some n, c!" " ++ chainText e l)) := by
      have et : threadText (some n) e l = c!"Exception in thread \"" ++ (n ++ '"' :: (c!" " ++ chainText e l)) := by
        simp [threadText]
      unfold threadName
      rw [et, skipString_append]
      dsimp only
      rw [if_neg (show ¬ c!"Exception in thread \"".length = 0 by decide), skipCspan_append (not_in h1 h2) (.inr (by simp)), Out.bind_ok]
      dsimp only
      rw [if_neg (by simp), strndup, List.take_left]
      rfl
    rw [this, Out.bind_ok]
    dsimp only
    rw [parseException_read l e c!" " _ he hl (by decide) (by simp only [List.length_append]; omega), Out.bind_ok]

example : ∃ (e d : Exc), (∀ x ∈ [e, d], x.WF) ∧ threadText (some c!"main") e [d] =
    c!"Exception in thread \"main\" a.E: b\n\tat f(A.java:1)\nCaused by: a.D\n\tat g(Native Method) [jar:file:/x.jar!/y]\n\t... 2 more\n\tSuppressed: S\n\t\tat h(Unknown Source)\n" ∧
    parseThread (threadText (some c!"main") e [d]) = .ok (some (⟨some c!"main",
      [{ name := some c!"a.D", isException := true }, { name := some c!"g", isNative := true, classPath := some c!"/x.jar" },
       { name := some c!"a.E", message := some c!"b", isException := true }, { name := some c!"f", fileName := some c!"A.java", fileLine := 1 }]⟩, [])) := by
  refine ⟨⟨c!"a.E", some c!"b", [⟨c!"f", .file c!"A.java", some 1, .absent⟩], none⟩,
    ⟨c!"a.D", none, [⟨c!"g", .native, none, .jarFile c!"/x.jar" c!"/y"⟩], some ⟨2, some (c!"S", [c!"\tat h(Unknown Source)"])⟩⟩, ?_,
    by decide +kernel, by decide +kernel⟩
  intro x hx
  rw [List.mem_pair] at hx
  rcases hx with rfl | rfl
  · refine ⟨by decide, by simp only [NoSpace]; decide, by decide, ?_, ?_, by rintro m ⟨⟩⟩
    · rintro m ⟨⟩; decide
    · intro c hc
      rw [List.mem_singleton] at hc
      subst hc
      exact ⟨by decide, by decide, by decide, by simp only [Source.WF]; decide, by rintro n ⟨⟩; decide, trivial⟩
  · refine ⟨by decide, by simp only [NoSpace]; decide, by decide, by rintro m ⟨⟩, ?_, ?_⟩
    · intro c hc
      rw [List.mem_singleton] at hc
      subst hc
      exact ⟨by decide, by decide, by decide, trivial, by rintro n ⟨⟩, by simp only [Url.WF]; decide⟩
    · rintro m ⟨⟩
      rintro x ⟨⟩
      exact ⟨by decide, by decide⟩

/-- C70 does not hold for an exception that was suppressed in the first one: the cause is lost, and the text from the calls of the
suppressed exception on remains unread. -/
theorem C70_not_suppressed :
    parseThread c!"E: m\n\tat f(A.java:1)\n\tSuppressed: S: x\n\t\tat g(B.java:2)\nCaused by: C: y\n\tat h(C.java:3)\n" =
      .ok (some (⟨none, [{ name := some c!"E", message := some c!"m", isException := true },
        { name := some c!"f", fileName := some c!"A.java", fileLine := 1 }]⟩, c!"at g(B.java:2)\nCaused by: C: y\n\tat h(C.java:3)\n")) := by
  decide +kernel

/-- C70 does not hold for an exception with an empty message: its first call is taken for the message. -/
theorem C70_not_empty_message :
    parseThread c!"E: \n\tat f(A.java:1)\n\tat g(B.java:2)\n" =
      .ok (some (⟨none, [{ name := some c!"E", message := some c!"at f(A.java:1)", isException := true },
        { name := some c!"g", fileName := some c!"B.java", fileLine := 2 }]⟩, [])) := by decide +kernel

/-- C70 does not hold for a message of several lines: the letters `at` anywhere in a further line are taken for a call. -/
theorem C70_not_multiline :
    parseThread c!"E: m\nsee what (1)\n\tat f(A.java:1)\n" =
      .ok (some (⟨none, [{ name := some c!"E", message := some c!"m", isException := true },
        { fileName := some c!"1" }, { name := some c!"f", fileName := some c!"A.java", fileLine := 1 }]⟩, [])) := by decide +kernel

/-- An empty line at the end makes a stack trace unreadable. -/
theorem C70_not_empty_line : parseThread c!"E: m\n\tat f(A.java:1)\n\n" = .ok none := by decide +kernel

/-! ## Threads printed by satyr -/

theorem printLoop_calls (fs : List JavaFrame) (h : ∀ f ∈ fs, f.isException = false) (dest exc : Str) :
    printLoop fs dest exc = (dest, exc ++ callsText (fs.map asCall)) := by
  induction fs generalizing exc with
  | nil => simp [printLoop, callsText]
  | cons f fs ih =>
    have hf := h f (by simp)
    rw [printLoop, if_neg (by simp [hf]), ih (fun x hx => h x (by simp [hx])), print_asCall f hf]
    simp [callsText]

/-- C70: a thread with one exception that was printed by `sr_java_thread_append_to_str` is read back, except that user names are
replaced in file names and class paths. -/
theorem C70_print_partial (thread name : Str) (msg : Option Str) (fs : List JavaFrame) (h1 : '"' ∉ thread) (h2 : '\n' ∉ thread)
    (hne : name ≠ []) (hb : NoSpace name) (hc : ':' ∉ name) (hm : ∀ m, msg = some m → m ≠ [] ∧ isSpace (peek m) = false ∧ '\n' ∉ m)
    (hf : ∀ f ∈ fs, Clean f) :
    parseThread (printThread ⟨some thread, { name := some name, isException := true, message := msg } :: fs⟩) =
      .ok (some (⟨some thread, { name := some name, isException := true, message := msg } ::
        fs.map fun f => { f with fileName := f.fileName.map anonymizePath, classPath := f.classPath.map anonymizePath }⟩, [])) := by
  have ht : printThread ⟨some thread, { name := some name, isException := true, message := msg } :: fs⟩ =
      threadText (some thread) ⟨name, msg, fs.map asCall, none⟩ [] := by
    unfold printThread
    dsimp only
    rw [printLoop, if_neg (by simp), printLoop_calls fs fun f hx => (hf f hx).method]
    cases msg <;> simp [printFrame, threadText, chainText, Exc.text, messageText, moreText]
  have hw : Exc.WF ⟨name, msg, fs.map asCall, none⟩ := by
    refine ⟨hne, hb, hc, hm, ?_, by rintro m ⟨⟩⟩
    intro c hcm
    obtain ⟨f, hx, rfl⟩ := List.mem_map.1 hcm
    exact asCall_wf f (hf f hx)
  rw [ht, C70_read_partial (some thread) _ [] (by rintro n ⟨⟩; exact ⟨h1, h2⟩) (by simpa using hw)]
  simp only [List.reverse_cons, List.reverse_nil, List.nil_append, List.flatMap_cons, List.flatMap_nil, List.append_nil, Exc.frames, List.map_map]
  have : fs.map (Call.frame ∘ asCall) = fs.map fun f => { f with fileName := f.fileName.map anonymizePath, classPath := f.classPath.map anonymizePath } :=
    List.map_congr_left fun f hx => asCall_frame f (hf f hx)
  rw [this]

example : parseThread (printThread ⟨some c!"main", [{ name := some c!"E", isException := true, message := some c!"x y" },
    { name := some c!"f", fileName := some c!"A.java", fileLine := 7, classPath := some c!"/a/b.jar" }]⟩) =
    .ok (some (⟨some c!"main", [{ name := some c!"E", isException := true, message := some c!"x y" },
    { name := some c!"f", fileName := some c!"A.java", fileLine := 7, classPath := some c!"/a/b.jar" }]⟩, [])) := by decide +kernel

/-- A thread with an exception caused by another one cannot be read back from the text that satyr itself prints. -/
theorem C70_not_printed_cause :
    printThread ⟨some c!"t", [{ name := some c!"D", isException := true }, { name := some c!"g" },
      { name := some c!"E", isException := true }, { name := some c!"f" }]⟩ =
        c!"Exception in thread \"t\" E\n\tat f(Unknown Source) [unknown]\nCaused by: D\n\tat g(Unknown Source) [unknown]\n\t...\n" ∧
    parseThread (printThread ⟨some c!"t", [{ name := some c!"D", isException := true }, { name := some c!"g" },
      { name := some c!"E", isException := true }, { name := some c!"f" }]⟩) = .ok none := by decide +kernel

end Satyr.Text.Java
