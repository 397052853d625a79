import Verif.Text.Java
import Verif.CStr.Exact
/-!
# Which texts are Java stack traces for the reader (C70)

A grammar of the texts that `sr_java_stacktrace_parse` accepts, without cursors and loops, and the proof that the reader follows it
exactly.
-/
namespace Satyr.Text.Java
open Satyr.CStr Satyr.Frames
open Satyr.Text.Js (LineEnd)

/-! ## Grammar -/

/-- `s` is `a` followed by `b`, cut before the first of the characters of `set`. -/
structure Upto (set s a b : Str) : Prop where
  split : s = a ++ b
  before : ∀ c ∈ a, c ∉ set
  stop : b = [] ∨ peek b ∈ set

/-- The address of a class up to the character that ends it, without `file:` before it. -/
def AddressText (stop : Char) (x : Str) (p : Option Str) : Prop :=
  ∃ z a b, (x = c!"file:" ++ z ∨ ¬ c!"file:" <+: x ∧ x = z) ∧ Upto [stop] z a b ∧ p = if a = [] then none else some (anonymizePath a)

/-- The address in brackets at the end of a line: none without a bracket or without a colon; in `jar:` up to `!`. -/
inductive UrlText : Str → Option Str → Prop
  | absent {l : Str} : '[' ∉ l → UrlText l none
  | plain {pre x : Str} : '[' ∉ pre → ':' ∉ x → UrlText (pre ++ '[' :: x) none
  | jarPlain {pre x : Str} : '[' ∉ pre → ':' ∉ x → UrlText (pre ++ '[' :: (c!"jar:" ++ x)) none
  | jar {pre x : Str} {p : Option Str} : '[' ∉ pre → ':' ∈ x → AddressText '!' x p → UrlText (pre ++ '[' :: (c!"jar:" ++ x)) p
  | url {pre x : Str} {p : Option Str} : '[' ∉ pre → ':' ∈ x → ¬ c!"jar:" <+: x → AddressText ']' x p → UrlText (pre ++ '[' :: x) p

/-- The number of the line after the name of the file: digits after a colon, if they are a number of 32 bits. -/
def LineText (r : Str) (n : Nat) (tail : Str) : Prop :=
  peek r ≠ ':' ∧ n = 0 ∧ tail = r ∨
  (∃ d, r = ':' :: (d ++ tail) ∧ Number d n ∧ IsDec (peek tail) = false) ∨
  r = ':' :: tail ∧ n = 0 ∧ ¬ ∃ d v u, tail = d ++ u ∧ Number d v ∧ IsDec (peek u) = false

/-- What is in the parenthesis: whether the method is native, the file, the line, and what follows. -/
inductive SourceText : Str → Bool → Option Str → Nat → Str → Prop
  | absent : SourceText [] false none 0 []
  | source {x src r tail : Str} {n : Nat} : Upto c!":)" x src r → LineText r n tail →
      SourceText ('(' :: x) (decide (nativeMark <+: src))
        (if src = [] ∨ nativeMark <+: src ∨ unknownMark <+: src then none else some (anonymizePath src)) n tail

/-- The line of a call after `at`. -/
def CallLine (l : Str) (f : JavaFrame) : Prop :=
  ∃ name r native file n tail p, Upto c!"(" l name r ∧ SourceText r native file n tail ∧ UrlText tail p ∧
    f = { name := if name = [] then none else some name, fileName := file, fileLine := n, classPath := p, isNative := native }

/-- A call: the text to the first `at`, white space, and the rest of that line. -/
def CallText (s : Str) (f : JavaFrame) (rest : Str) : Prop :=
  ∃ pre ws l t, FirstAt c!"at" s pre (ws ++ (l ++ t)) ∧ (∀ c ∈ ws, isSpace c = true) ∧ isSpace (peek (l ++ t)) = false ∧
    '\n' ∉ l ∧ LineEnd t ∧ CallLine l f ∧ rest = t.drop 1

/-- The message of an exception and the end of its line. White space after the colon does not belong to it, not even the end of the line. -/
def MessageText (x : Str) (m : Option Str) (rest : Str) : Prop :=
  (∃ ws l t, x = ':' :: (ws ++ (l ++ t)) ∧ (∀ c ∈ ws, isSpace c = true) ∧ isSpace (peek (l ++ t)) = false ∧ '\n' ∉ l ∧ LineEnd t ∧
    m = (if l = [] then none else some l) ∧ rest = t.drop 1) ∨
  (∃ l t, x = l ++ t ∧ peek x ≠ ':' ∧ '\n' ∉ l ∧ LineEnd t ∧ m = none ∧ rest = t.drop 1)

/-- The first line of an exception. -/
def HeadText (s : Str) (e : JavaFrame) (rest : Str) : Prop :=
  ∃ ws name x m, s = ws ++ (name ++ x) ∧ (∀ c ∈ ws, isSpace c = true) ∧ isSpace (peek name) = false ∧ name ≠ [] ∧
    Upto c!": \t\n" (name ++ x) name x ∧ MessageText x m rest ∧ e = { name := some name, isException := true, message := m }

/-- A line after the calls of an exception. -/
def EndMark (c : Str) : Prop := c!"... " <+: c ∨ c!"Suppressed: " <+: c

/-- The calls of an exception, to the end of the text or to a line that is none. -/
inductive CallsText : Str → List JavaFrame → Str → Prop
  | empty : CallsText [] [] []
  | mark {s : Str} : s ≠ [] → (EndMark (skipWs s) ∨ c!"Caused by: " <+: skipWs s) → CallsText s [] (skipWs s)
  | call {s u c : Str} {f : JavaFrame} {fs : List JavaFrame} : ¬ (EndMark (skipWs s) ∨ c!"Caused by: " <+: skipWs s) →
      CallText (skipWs s) f u → CallsText u fs c → CallsText s (f :: fs) c

/-- The text after the first line. -/
def afterLine (s : Str) : Str := (s.dropWhile fun c => c ≠ '\n').drop 1

/-- The text after the lines that begin with white space. -/
inductive Unindented : Str → Str → Prop
  | stop {s : Str} : isSpace (peek s) = false → Unindented s s
  | line {s r : Str} : isSpace (peek s) = true → Unindented (afterLine s) r → Unindented s r

/-- The text after the end of the calls: the next line that is not white space, and with a suppressed exception the next after it that
is not indented. -/
def AfterCalls (c d : Str) : Prop :=
  ¬ c!"Suppressed: " <+: skipWs (afterLine c) ∧ d = skipWs (afterLine c) ∨
  c!"Suppressed: " <+: skipWs (afterLine c) ∧ Unindented (afterLine (skipWs (afterLine c))) d

/-- An exception, with its causes before it. -/
inductive ChainText : Str → List JavaFrame → Str → Prop
  | all {s r : Str} {e : JavaFrame} {fs : List JavaFrame} : HeadText s e r → CallsText r fs [] → ChainText s (e :: fs) []
  | more {s r c d : Str} {e : JavaFrame} {fs : List JavaFrame} : HeadText s e r → CallsText r fs c → EndMark c → AfterCalls c d →
      ¬ c!"Caused by: " <+: d → ChainText s (e :: fs) d
  | cause {s r d u : Str} {e : JavaFrame} {fs inner : List JavaFrame} : HeadText s e r → CallsText r fs (c!"Caused by: " ++ d) →
      ChainText d inner u → ChainText s (inner ++ e :: fs) u
  | moreCause {s r c d u : Str} {e : JavaFrame} {fs inner : List JavaFrame} : HeadText s e r → CallsText r fs c → EndMark c →
      AfterCalls c (c!"Caused by: " ++ d) → ChainText d inner u → ChainText s (inner ++ e :: fs) u

/-- A stack trace: an exception, after the name of the thread if the text says so. -/
def TraceText (s : Str) (t : JavaThread) (rest : Str) : Prop :=
  (∃ name u, s = c!"Exception in thread \"" ++ (name ++ '"' :: u) ∧ '"' ∉ name ∧ '\n' ∉ name ∧ t.name = some name ∧
    ChainText u t.frames rest) ∨
  (¬ c!"Exception in thread \"" <+: s ∧ t.name = none ∧ ChainText s t.frames rest)

/-! ## The grammar is unambiguous -/

theorem Upto.unique {set s a b a' b' : Str} (h : Upto set s a b) (h' : Upto set s a' b') : a = a' ∧ b = b' := by
  have h1 := skipCspan_append h.before h.stop
  have h2 := skipCspan_append h'.before h'.stop
  have e := h.split.symm.trans h'.split
  rw [e, h2] at h1
  injection h1 with h1
  rw [Prod.mk.injEq] at h1
  obtain ⟨-, rfl⟩ := h1
  exact ⟨List.append_cancel_right e, rfl⟩

theorem upto_exists (set s : Str) : ∃ a b, Upto set s a b := by
  obtain ⟨a, b, h1, h2, h3, -⟩ := span_split s set
  exact ⟨a, b, h1, h2, h3⟩

theorem first_unique {c : Char} {a b a' b' : Str} (h : a ++ c :: b = a' ++ c :: b') (ha : c ∉ a) (ha' : c ∉ a') : a = a' ∧ b = b' := by
  have h1 : Upto [c] (a ++ c :: b) a (c :: b) := ⟨rfl, notin' ha, .inr (by simp)⟩
  have h2 : Upto [c] (a ++ c :: b) a' (c :: b') := ⟨h, notin' ha', .inr (by simp)⟩
  obtain ⟨rfl, e⟩ := h1.unique h2
  exact ⟨rfl, List.cons_injective e⟩

theorem AddressText.unique {stop : Char} {x : Str} {p q : Option Str} (h : AddressText stop x p) (h' : AddressText stop x q) : p = q := by
  obtain ⟨z, a, b, hz, hu, rfl⟩ := h
  obtain ⟨z', a', b', hz', hu', rfl⟩ := h'
  have : z = z' := by
    rcases hz with rfl | ⟨hz, rfl⟩ <;> rcases hz' with e | ⟨hz', e⟩
    · exact List.append_cancel_left e
    · exact absurd ⟨z, rfl⟩ hz'
    · exact absurd ⟨z', e.symm⟩ hz
    · exact e
  subst this
  rw [(hu.unique hu').1]

theorem UrlText.unique {l : Str} {p q : Option Str} (h : UrlText l p) (h' : UrlText l q) : p = q := by
  have hm : ∀ pre x : Str, '[' ∈ pre ++ '[' :: x := by simp
  have key : ∀ {l p}, UrlText l p → ∀ {pre x}, l = pre ++ '[' :: x → '[' ∉ pre →
      (':' ∉ x ∧ p = none) ∨ (∃ y, x = c!"jar:" ++ y ∧ ':' ∉ y ∧ p = none) ∨ (∃ y, x = c!"jar:" ++ y ∧ ':' ∈ y ∧ AddressText '!' y p) ∨
      (¬ c!"jar:" <+: x ∧ ':' ∈ x ∧ AddressText ']' x p) := by
    intro l p h pre x e hp
    cases h with
    | absent hl => exact absurd (hm pre x) (e ▸ hl)
    | plain h1 h2 => obtain ⟨-, rfl⟩ := first_unique e h1 hp; exact .inl ⟨h2, rfl⟩
    | jarPlain h1 h2 => obtain ⟨-, rfl⟩ := first_unique e h1 hp; exact .inr (.inl ⟨_, rfl, h2, rfl⟩)
    | jar h1 h2 h3 => obtain ⟨-, rfl⟩ := first_unique e h1 hp; exact .inr (.inr (.inl ⟨_, rfl, h2, h3⟩))
    | url h1 h2 h3 h4 => obtain ⟨-, rfl⟩ := first_unique e h1 hp; exact .inr (.inr (.inr ⟨h3, h2, h4⟩))
  by_cases hl : '[' ∈ l
  · obtain ⟨pre, x, rfl, hp⟩ := first_split hl
    rcases key h rfl hp with ⟨h1, rfl⟩ | ⟨y, rfl, h1, rfl⟩ | ⟨y, rfl, h1, h2⟩ | ⟨h1, h2, h3⟩ <;>
      rcases key h' rfl hp with ⟨k1, rfl⟩ | ⟨y', e, k1, rfl⟩ | ⟨y', e, k1, k2⟩ | ⟨k1, k2, k3⟩
    · rfl
    · rfl
    · exact absurd (by rw [e]; simp) h1
    · exact absurd k2 h1
    · rfl
    · rfl
    · cases List.append_cancel_left e; exact absurd k1 h1
    · exact absurd ⟨_, rfl⟩ k1
    · exact absurd (by simp) k1
    · cases List.append_cancel_left e; exact absurd h1 k1
    · cases List.append_cancel_left e; exact h2.unique k2
    · exact absurd ⟨_, rfl⟩ k1
    · exact absurd h2 k1
    · exact absurd ⟨_, e.symm⟩ h1
    · exact absurd ⟨_, e.symm⟩ h1
    · exact h3.unique k3
  · have : ∀ {p}, UrlText l p → p = none := by
      intro p h
      cases h with
      | absent _ => rfl
      | plain _ _ => rfl
      | jarPlain _ _ => rfl
      | jar _ _ _ => exact absurd (hm _ _) hl
      | url _ _ _ _ => exact absurd (hm _ _) hl
    rw [this h, this h']

theorem number_unique {d d' t t' : Str} {v v' : Nat} (h : Number d v) (h' : Number d' v') (ht : IsDec (peek t) = false)
    (ht' : IsDec (peek t') = false) (e : d ++ t = d' ++ t') : v = v' ∧ t = t' := by
  have h1 := (parseUint32_iff (s := d ++ t)).2 ⟨d, rfl, h, rfl, ht⟩
  have h2 := (parseUint32_iff (s := d' ++ t')).2 ⟨d', rfl, h', rfl, ht'⟩
  rw [e, h2] at h1
  injection h1 with h1
  simp only [Prod.mk.injEq, Option.some.injEq] at h1
  exact ⟨h1.2.1.symm, h1.2.2.symm⟩

theorem LineText.unique {r t t' : Str} {n n' : Nat} (h : LineText r n t) (h' : LineText r n' t') : n = n' ∧ t = t' := by
  rcases h with ⟨h1, rfl, rfl⟩ | ⟨d, rfl, h1, h2⟩ | ⟨rfl, rfl, h1⟩ <;> rcases h' with ⟨k1, rfl, rfl⟩ | ⟨d', e, k1, k2⟩ | ⟨e, rfl, k1⟩
  · exact ⟨rfl, rfl⟩
  · exact absurd (by rw [e]; rfl) h1
  · exact absurd (by rw [e]; rfl) h1
  · exact absurd rfl k1
  · exact number_unique h1 k1 h2 k2 (List.cons_injective e)
  · exact absurd ⟨d, n, t, (List.cons_injective e).symm, h1, h2⟩ k1
  · exact absurd rfl k1
  · exact absurd ⟨d', n', t', List.cons_injective e, k1, k2⟩ h1
  · exact ⟨rfl, List.cons_injective e⟩

theorem CallLine.unique {l : Str} {f g : JavaFrame} (h : CallLine l f) (h' : CallLine l g) : f = g := by
  obtain ⟨name, r, native, file, n, tail, p, h1, h2, h3, rfl⟩ := h
  obtain ⟨name', r', native', file', n', tail', p', k1, k2, k3, rfl⟩ := h'
  obtain ⟨rfl, rfl⟩ := h1.unique k1
  have : native = native' ∧ file = file' ∧ n = n' ∧ tail = tail' := by
    cases h2 with
    | absent => cases k2; exact ⟨rfl, rfl, rfl, rfl⟩
    | source a b =>
      cases k2 with
      | source a' b' =>
        obtain ⟨rfl, rfl⟩ := a.unique a'
        obtain ⟨rfl, rfl⟩ := b.unique b'
        exact ⟨rfl, rfl, rfl, rfl⟩
  obtain ⟨rfl, rfl, rfl, rfl⟩ := this
  rw [h3.unique k3]

theorem ws_unique {a b a' b' : Str} (ha : ∀ c ∈ a, isSpace c = true) (hb : isSpace (peek b) = false) (ha' : ∀ c ∈ a', isSpace c = true)
    (hb' : isSpace (peek b') = false) (e : a ++ b = a' ++ b') : b = b' := by
  have : ∀ {a b : Str}, (∀ c ∈ a, isSpace c = true) → isSpace (peek b) = false → skipWs (a ++ b) = b := by
    intro a b ha hb
    unfold skipWs
    rw [List.dropWhile_append_of_pos ha]
    cases b with
    | nil => rfl
    | cons c b => exact List.dropWhile_cons_of_neg (by simpa using hb)
  rw [← this ha hb, e, this ha' hb']

theorem line_unique {l t l' t' : Str} (hl : '\n' ∉ l) (ht : LineEnd t) (hl' : '\n' ∉ l') (ht' : LineEnd t') (e : l ++ t = l' ++ t') :
    l = l' ∧ t = t' :=
  Upto.unique (set := c!"\n") (s := l ++ t) ⟨rfl, notin' hl, ht.imp id fun h => by simp [h]⟩ ⟨e, notin' hl', ht'.imp id fun h => by simp [h]⟩

theorem CallText.unique {s u u' : Str} {f g : JavaFrame} (h : CallText s f u) (h' : CallText s g u') : f = g ∧ u = u' := by
  obtain ⟨pre, ws, l, t, h1, h2, h3, h4, h5, h6, rfl⟩ := h
  obtain ⟨pre', ws', l', t', k1, k2, k3, k4, k5, k6, rfl⟩ := h'
  obtain ⟨-, e⟩ := h1.unique k1
  obtain ⟨rfl, rfl⟩ := line_unique h4 h5 k4 k5 (ws_unique h2 h3 k2 k3 e)
  exact ⟨h6.unique k6, rfl⟩

theorem MessageText.unique {x u u' : Str} {m m' : Option Str} (h : MessageText x m u) (h' : MessageText x m' u') : m = m' ∧ u = u' := by
  rcases h with ⟨ws, l, t, rfl, h1, h2, h3, h4, rfl, rfl⟩ | ⟨l, t, rfl, h1, h2, h3, rfl, rfl⟩ <;>
    rcases h' with ⟨ws', l', t', e, k1, k2, k3, k4, rfl, rfl⟩ | ⟨l', t', e, k1, k2, k3, rfl, rfl⟩
  · obtain ⟨rfl, rfl⟩ := line_unique h3 h4 k3 k4 (ws_unique h1 h2 k1 k2 (List.cons_injective e))
    exact ⟨rfl, rfl⟩
  · exact absurd rfl k1
  · exact absurd (by rw [e]; rfl) h1
  · obtain ⟨rfl, rfl⟩ := line_unique h2 h3 k2 k3 e
    exact ⟨rfl, rfl⟩

theorem HeadText.unique {s u u' : Str} {e e' : JavaFrame} (h : HeadText s e u) (h' : HeadText s e' u') : e = e' ∧ u = u' := by
  obtain ⟨ws, name, x, m, rfl, h1, h2, h3, h4, h5, rfl⟩ := h
  obtain ⟨ws', name', x', m', e, k1, k2, k3, k4, k5, rfl⟩ := h'
  have hp : ∀ {a b : Str}, a ≠ [] → isSpace (peek a) = false → isSpace (peek (a ++ b)) = false := by
    intro a b ha h
    cases a with
    | nil => exact absurd rfl ha
    | cons c a => exact h
  have e := ws_unique h1 (hp h3 h2) k1 (hp k3 k2) e
  rw [← e] at k4
  obtain ⟨rfl, rfl⟩ := h4.unique k4
  obtain ⟨rfl, rfl⟩ := h5.unique k5
  exact ⟨rfl, rfl⟩

theorem callText_ne {s u : Str} {f : JavaFrame} (h : CallText s f u) : s ≠ [] := by
  obtain ⟨pre, ws, l, t, h1, -⟩ := h
  rintro rfl
  have := h1.1
  simp at this

theorem CallsText.unique {s c c' : Str} {fs gs : List JavaFrame} (h : CallsText s fs c) (h' : CallsText s gs c') : fs = gs ∧ c = c' := by
  induction h generalizing gs c' with
  | empty =>
    cases h' with
    | empty => exact ⟨rfl, rfl⟩
    | mark h _ => exact absurd rfl h
    | call _ h _ => exact absurd rfl (callText_ne h)
  | mark h1 h2 =>
    cases h' with
    | empty => exact absurd rfl h1
    | mark _ _ => exact ⟨rfl, rfl⟩
    | call h _ _ => exact absurd h2 h
  | call h1 h2 h3 ih =>
    cases h' with
    | empty => exact absurd rfl (callText_ne h2)
    | mark _ h => exact absurd h h1
    | call _ k2 k3 =>
      obtain ⟨rfl, rfl⟩ := h2.unique k2
      obtain ⟨rfl, rfl⟩ := ih k3
      exact ⟨rfl, rfl⟩

theorem Unindented.unique {s r r' : Str} (h : Unindented s r) (h' : Unindented s r') : r = r' := by
  induction h with
  | stop h =>
    cases h' with
    | stop _ => rfl
    | line k _ => rw [h] at k; cases k
  | line h _ ih =>
    cases h' with
    | stop k => rw [h] at k; cases k
    | line _ k => exact ih k

theorem AfterCalls.unique {c d d' : Str} (h : AfterCalls c d) (h' : AfterCalls c d') : d = d' := by
  rcases h with ⟨h1, rfl⟩ | ⟨h1, h2⟩ <;> rcases h' with ⟨k1, rfl⟩ | ⟨k1, k2⟩
  · rfl
  · exact absurd k1 h1
  · exact absurd h1 k1
  · exact h2.unique k2

theorem endMark_cause {c d : Str} (h : EndMark c) (e : c = c!"Caused by: " ++ d) : False := by
  subst e
  rcases h with ⟨t, h⟩ | ⟨t, h⟩ <;> simp at h

theorem endMark_nil (h : EndMark []) : False := by
  rcases h with ⟨t, h⟩ | ⟨t, h⟩ <;> simp at h

theorem ChainText.unique {s u u' : Str} {fs gs : List JavaFrame} (h : ChainText s fs u) (h' : ChainText s gs u') : fs = gs ∧ u = u' := by
  induction h generalizing gs u' with
  | all h1 h2 =>
    cases h' with
    | all k1 k2 => obtain ⟨rfl, rfl⟩ := h1.unique k1; obtain ⟨rfl, -⟩ := h2.unique k2; exact ⟨rfl, rfl⟩
    | more k1 k2 k3 _ _ => obtain ⟨rfl, rfl⟩ := h1.unique k1; obtain ⟨rfl, rfl⟩ := h2.unique k2; exact (endMark_nil k3).elim
    | cause k1 k2 _ => obtain ⟨rfl, rfl⟩ := h1.unique k1; have := (h2.unique k2).2; simp at this
    | moreCause k1 k2 k3 _ _ => obtain ⟨rfl, rfl⟩ := h1.unique k1; obtain ⟨rfl, rfl⟩ := h2.unique k2; exact (endMark_nil k3).elim
  | more h1 h2 h3 h4 h5 =>
    cases h' with
    | all k1 k2 => obtain ⟨rfl, rfl⟩ := h1.unique k1; obtain ⟨rfl, rfl⟩ := h2.unique k2; exact (endMark_nil h3).elim
    | more k1 k2 k3 k4 _ =>
      obtain ⟨rfl, rfl⟩ := h1.unique k1; obtain ⟨rfl, rfl⟩ := h2.unique k2; exact ⟨rfl, h4.unique k4⟩
    | cause k1 k2 _ => obtain ⟨rfl, rfl⟩ := h1.unique k1; exact (endMark_cause h3 (h2.unique k2).2).elim
    | moreCause k1 k2 k3 k4 _ =>
      obtain ⟨rfl, rfl⟩ := h1.unique k1; obtain ⟨rfl, rfl⟩ := h2.unique k2; exact absurd ⟨_, (h4.unique k4).symm⟩ h5
  | cause h1 h2 h3 ih =>
    cases h' with
    | all k1 k2 => obtain ⟨rfl, rfl⟩ := h1.unique k1; have := (h2.unique k2).2; simp at this
    | more k1 k2 k3 _ _ => obtain ⟨rfl, rfl⟩ := h1.unique k1; exact (endMark_cause k3 (k2.unique h2).2).elim
    | cause k1 k2 k3 =>
      obtain ⟨rfl, rfl⟩ := h1.unique k1; obtain ⟨rfl, e⟩ := h2.unique k2; cases List.append_cancel_left e
      obtain ⟨rfl, rfl⟩ := ih k3; exact ⟨rfl, rfl⟩
    | moreCause k1 k2 k3 _ _ => obtain ⟨rfl, rfl⟩ := h1.unique k1; exact (endMark_cause k3 (k2.unique h2).2).elim
  | moreCause h1 h2 h3 h4 h5 ih =>
    cases h' with
    | all k1 k2 => obtain ⟨rfl, rfl⟩ := h1.unique k1; obtain ⟨rfl, rfl⟩ := h2.unique k2; exact (endMark_nil h3).elim
    | more k1 k2 k3 k4 k5 =>
      obtain ⟨rfl, rfl⟩ := h1.unique k1; obtain ⟨rfl, rfl⟩ := h2.unique k2; exact absurd ⟨_, h4.unique k4⟩ k5
    | cause k1 k2 _ => obtain ⟨rfl, rfl⟩ := h1.unique k1; exact (endMark_cause h3 (h2.unique k2).2).elim
    | moreCause k1 k2 k3 k4 k5 =>
      obtain ⟨rfl, rfl⟩ := h1.unique k1; obtain ⟨rfl, rfl⟩ := h2.unique k2; cases List.append_cancel_left (h4.unique k4)
      obtain ⟨rfl, rfl⟩ := ih k5; exact ⟨rfl, rfl⟩

/-- C70: a text is read in one way only. -/
theorem C70_unique {s u u' : Str} {t t' : JavaThread} (h : TraceText s t u) (h' : TraceText s t' u') : t = t' ∧ u = u' := by
  have ext : ∀ {t t' : JavaThread}, t.name = t'.name → t.frames = t'.frames → t = t' := by
    rintro ⟨a, b⟩ ⟨c, d⟩ e e'; cases e; cases e'; rfl
  rcases h with ⟨n, v, rfl, h1, h2, h3, h4⟩ | ⟨h1, h2, h3⟩ <;> rcases h' with ⟨n', v', e, k1, k2, k3, k4⟩ | ⟨k1, k2, k3⟩
  · obtain ⟨rfl, rfl⟩ := first_unique (List.append_cancel_left e) h1 k1
    obtain ⟨e, rfl⟩ := h4.unique k4
    exact ⟨ext (h3.trans k3.symm) e, rfl⟩
  · exact absurd ⟨_, rfl⟩ k1
  · exact absurd ⟨_, e.symm⟩ h1
  · obtain ⟨e, rfl⟩ := h3.unique k3
    exact ⟨ext (h2.trans k2.symm) e, rfl⟩

/-! ## The reader follows the grammar -/

theorem end_peek {t : Str} (h : LineEnd t) {c : Char} (h1 : c ≠ '\n') (h2 : c ≠ '\x00') : peek t ≠ c := by
  rcases h with rfl | h
  · exact fun e => h2 e.symm
  · rw [h]; exact fun e => h1 e.symm

/-- Skipping within a line. -/
theorem cut (set l t : Str) (hl : '\n' ∉ l) (ht : LineEnd t) :
    ∃ a b, Upto set l a b ∧ skipCharCspan (l ++ t) (set ++ c!"\n") = .ok (a.length, b ++ t) := by
  obtain ⟨a, b, rfl, h1, h2⟩ := upto_exists set l
  refine ⟨a, b, ⟨rfl, h1, h2⟩, ?_⟩
  rw [List.append_assoc]
  refine skipCspan_append (fun c hc => ?_) ?_
  · simp only [List.mem_append, List.mem_singleton, not_or]
    exact ⟨h1 c hc, by rintro rfl; exact hl (by simp [hc])⟩
  · cases b with
    | nil => exact ht.imp id fun h => by simp [h]
    | cons c b =>
      rcases h2 with h2 | h2
      · cases h2
      · exact .inr (List.mem_append_left _ h2)

theorem Upto.clean {set s a b : Str} (h : Upto set s a b) {c : Char} (hc : c ∉ s) : c ∉ a ∧ c ∉ b := by
  rw [h.split] at hc
  simpa using hc

/-- Where the first of the characters of the set is one of them. -/
theorem Upto.one {c : Char} {s a b : Str} (h : Upto [c] s a b) : b = [] ∧ c ∉ s ∨ ∃ x, b = c :: x ∧ c ∉ a := by
  have ha := notin h.before
  cases b with
  | nil => refine .inl ⟨rfl, ?_⟩; rw [h.split]; simpa using ha
  | cons d x =>
    rcases h.stop with e | e
    · cases e
    · have : d = c := by simpa using e
      subst this
      exact .inr ⟨x, rfl, ha⟩

/-- A prefix without the characters that follow. -/
theorem prefix_before {set x a b w t : Str} (h : Upto set x a b) (hw : ∀ c ∈ w, c ∉ set) (hn : '\n' ∉ w) (ht : LineEnd t) :
    startsWith (x ++ t) w = decide (w <+: a) := by
  rw [h.split, List.append_assoc]
  by_cases hp : w <+: a
  · obtain ⟨z, rfl⟩ := hp
    rw [decide_eq_true ⟨z, rfl⟩, startsWith_split]
    exact ⟨z ++ (b ++ t), by simp⟩
  · rw [decide_eq_false hp]
    by_contra hc
    rw [Bool.not_eq_false, startsWith_split] at hc
    obtain ⟨u, e⟩ := hc
    rcases List.append_eq_append_iff.1 e with ⟨z, h1, h2⟩ | ⟨z, h1, h2⟩
    · cases z with
      | nil => exact hp ⟨[], by simpa using h1⟩
      | cons c z =>
        have hc : c ∈ w := by rw [h1]; simp
        have hk : CStr.peek (b ++ t) = c := by rw [h2]; rfl
        cases b with
        | nil =>
          rcases ht with rfl | ht
          · cases h2
          · rw [List.nil_append, ht] at hk
            exact hn (hk ▸ hc)
        | cons d b =>
          rcases h.stop with e | e
          · cases e
          · have : d = c := hk
            subst this
            exact hw d hc e
    · exact hp ⟨z, h1.symm⟩

theorem pathEnd_spec (p : Option Str) {a t : Str} (ha : '\n' ∉ a) (ht : LineEnd t) :
    ∃ b, pathEnd (p, a ++ t) = .ok (p, b ++ t) ∧ '\n' ∉ b := pathEnd_other ha ht

theorem file_colon {x a y : Str} (h : x = a ++ ':' :: y) (ha : ':' ∉ a) (z : Str) (hz : x = c!"file:" ++ z) : y = z := by
  have : a ++ ':' :: y = c!"file" ++ ':' :: z := by rw [← h, hz]; rfl
  exact (first_unique this ha (by decide)).2

theorem path_spec (stop : Char) {x a y t : Str} (hx : x = a ++ ':' :: y) (ha : ':' ∉ a) (hn : '\n' ∉ x) (ht : LineEnd t) :
    ∃ p b, AddressText stop x p ∧ path ([stop] ++ c!"\n") (x ++ t) (':' :: (y ++ t)) = .ok (p, b ++ t) ∧ '\n' ∉ b := by
  have hu : Upto c!":" x a (':' :: y) := ⟨hx, notin' ha, .inr (by simp)⟩
  have hs : ∀ z, '\n' ∉ z → ∃ c b, Upto [stop] z c b ∧ (do
      let (n, cursor) ← skipCharCspan (z ++ t) ([stop] ++ c!"\n")
      Out.ok (if n = 0 then none else some (anonymizePath (strndup (z ++ t) n)), cursor)) =
      .ok (if c = [] then none else some (anonymizePath c), b ++ t) ∧ '\n' ∉ b := by
    intro z hz
    obtain ⟨c, b, h1, h2⟩ := cut [stop] z t hz ht
    refine ⟨c, b, h1, ?_, (h1.clean hz).2⟩
    rw [h2, Out.bind_ok]
    dsimp only
    have e : strndup (z ++ t) c.length = c := by rw [strndup, h1.split, List.append_assoc, List.take_left]
    rw [e]
    cases c <;> simp
  by_cases hf : c!"file:" <+: x
  · obtain ⟨z, hz⟩ := hf
    have hy := file_colon hx ha z hz.symm
    subst hy
    have hzn : '\n' ∉ y := by rw [hx] at hn; simp at hn; exact hn.2
    obtain ⟨c, b, h1, h2, h3⟩ := hs y hzn
    refine ⟨_, b, ⟨y, c, b, .inl hz.symm, h1, rfl⟩, ?_, h3⟩
    unfold path filePrefix
    rw [if_pos ((startsWith_split _ _).2 ⟨y ++ t, by rw [← hz]; simp⟩)]
    exact h2
  · obtain ⟨c, b, h1, h2, h3⟩ := hs x hn
    refine ⟨_, b, ⟨x, c, b, .inr ⟨hf, rfl⟩, h1, rfl⟩, ?_, h3⟩
    unfold path filePrefix
    rw [if_neg]
    · exact h2
    · intro e
      refine hf ?_
      obtain ⟨u, e⟩ := (startsWith_split _ _).1 e
      rw [hx] at e
      have e' : a ++ ':' :: (y ++ t) = c!"file" ++ ':' :: u := by rw [← List.cons_append, ← List.append_assoc, e]; rfl
      obtain ⟨rfl, -⟩ := first_unique e' ha (by decide)
      exact ⟨y, by rw [hx]; rfl⟩

theorem frameUrl_spec (l t : Str) (hl : '\n' ∉ l) (ht : LineEnd t) :
    ∃ p b, UrlText l p ∧ frameUrl (l ++ t) = .ok (p, b ++ t) ∧ '\n' ∉ b := by
  obtain ⟨pre, b, h1, h2⟩ := cut c!"[" l t hl ht
  unfold frameUrl
  rw [show c!"[\n" = c!"[" ++ c!"\n" from rfl, h2, Out.bind_ok]
  dsimp only
  rcases h1.one with ⟨rfl, hb⟩ | ⟨x, rfl, hb⟩
  · rw [List.nil_append, if_pos (end_peek ht (by decide) (by decide))]
    exact ⟨none, [], .absent hb, rfl, by simp⟩
  · have hxn : '\n' ∉ x := fun h => (h1.clean hl).2 (by simp [h])
    rw [h1.split, List.cons_append, if_neg (by simp)]
    show ∃ p b, _ ∧ (Out.ok (x ++ t) >>= _) = _ ∧ _
    simp only [Out.bind_ok]
    obtain ⟨a, c, k1, k2⟩ := cut c!":" x t hxn ht
    rw [show c!":\n" = c!":" ++ c!"\n" from rfl, k2, Out.bind_ok]
    dsimp only
    rcases k1.one with ⟨rfl, hc⟩ | ⟨y, rfl, ha⟩
    · rw [List.nil_append, if_pos (end_peek ht (by decide) (by decide))]
      obtain ⟨b, e1, e2⟩ := pathEnd_spec none (a := []) (by simp) ht
      exact ⟨none, b, .plain hb hc, e1, e2⟩
    · rw [List.cons_append, if_neg (by simp)]
      have hyn : '\n' ∉ y := fun h => (k1.clean hxn).2 (by simp [h])
      have hcx : ':' ∈ x := by rw [k1.split]; simp
      by_cases hj : c!"jar:" <+: x
      · obtain ⟨z, hz⟩ := hj
        have : a ++ ':' :: y = c!"jar" ++ ':' :: z := by rw [← k1.split, ← hz]; rfl
        obtain ⟨rfl, rfl⟩ := first_unique this ha (by decide)
        subst hz
        rw [show jarPrefix (c!"jar:" ++ y ++ t) (':' :: (y ++ t)) = _ from jarPrefix_jar (y ++ t)]
        obtain ⟨a', c', m1, m2⟩ := cut c!":" y t hyn ht
        rw [show c!":\n" = c!":" ++ c!"\n" from rfl, m2, Out.bind_ok]
        dsimp only
        rcases m1.one with ⟨rfl, hc⟩ | ⟨w, rfl, ha'⟩
        · rw [List.nil_append, if_pos (end_peek ht (by decide) (by decide)), Out.bind_ok]
          exact ⟨none, [], .jarPlain hb hc, rfl, by simp⟩
        · rw [List.cons_append, if_neg (by simp), Out.bind_ok]
          rw [List.cons_append] at m2
          obtain ⟨p, b, e1, e2, e3⟩ := path_spec '!' m1.split ha' hyn ht
          dsimp only
          rw [show c!"!\n" = ['!'] ++ c!"\n" from rfl, show ':' :: w ++ t = ':' :: (w ++ t) from rfl, e2, Out.bind_ok]
          obtain ⟨b', e4, e5⟩ := pathEnd_spec p e3 ht
          exact ⟨p, b', .jar hb (by rw [m1.split]; simp) e1, e4, e5⟩
      · have hs : startsWith (x ++ t) c!"jar:" = false := by
          by_contra hc
          rw [Bool.not_eq_false, startsWith_split] at hc
          obtain ⟨u, e⟩ := hc
          rw [k1.split] at e
          have e' : a ++ ':' :: (y ++ t) = c!"jar" ++ ':' :: u := by rw [← List.cons_append, ← List.append_assoc, e]; rfl
          obtain ⟨rfl, -⟩ := first_unique e' ha (by decide)
          exact hj ⟨y, by rw [k1.split]; rfl⟩
        unfold jarPrefix
        rw [if_neg (by rw [hs]; simp), Out.bind_ok]
        dsimp only
        obtain ⟨p, b, e1, e2, e3⟩ := path_spec ']' k1.split ha hxn ht
        rw [show c!"]\n" = [']'] ++ c!"\n" from rfl, e2, Out.bind_ok]
        obtain ⟨b', e4, e5⟩ := pathEnd_spec p e3 ht
        exact ⟨p, b', .url hb hcx hj e1, e4, e5⟩

theorem isDec_end {t : Str} (ht : LineEnd t) : IsDec (peek t) = false := by
  rcases ht with rfl | h
  · decide
  · rw [h]; decide

theorem lineNumber_spec (r t : Str) (hr : '\n' ∉ r) (ht : LineEnd t) :
    ∃ n tail, LineText r n tail ∧ lineNumber (r ++ t) = .ok (n, tail ++ t) ∧ '\n' ∉ tail := by
  unfold lineNumber
  by_cases hc : ∃ x, r = ':' :: x
  · obtain ⟨x, rfl⟩ := hc
    rw [List.cons_append, if_pos (by rfl)]
    show ∃ n tail, _ ∧ (Out.ok (x ++ t) >>= _) = _ ∧ _
    rw [Out.bind_ok]
    have hx : '\n' ∉ x := fun h => hr (by simp [h])
    by_cases hd : ∃ d v u, x = d ++ u ∧ Number d v ∧ IsDec (peek u) = false
    · obtain ⟨d, v, u, rfl, h1, h2⟩ := hd
      have h3 : IsDec (peek (u ++ t)) = false := by
        cases u with
        | nil => exact isDec_end ht
        | cons c u => exact h2
      rw [(parseUint32_iff (v := v) (t := u ++ t) (n := d.length)).2 ⟨d, by simp, h1, rfl, h3⟩]
      exact ⟨v, u, .inr (.inl ⟨d, rfl, h1, h2⟩), rfl, fun h => hx (by simp [h])⟩
    · have : parseUint32 (x ++ t) = .ok (0, none, x ++ t) := by
        rw [C25_uint32]
        dsimp only
        rw [if_neg]
        rintro ⟨h1, h2⟩
        have hs : (x ++ t).takeWhile IsDec = x.takeWhile IsDec := by
          rw [List.takeWhile_append]
          split
          · next e =>
            rw [show t.takeWhile IsDec = [] by
              cases t with
              | nil => rfl
              | cons c t => rw [List.takeWhile_cons, show IsDec c = false from isDec_end ht]; rfl]
            rw [List.append_nil, (List.takeWhile_prefix IsDec (l := x)).eq_of_length e]
          · rfl
        rw [hs] at h1 h2
        refine hd ⟨_, _, x.dropWhile IsDec, List.takeWhile_append_dropWhile.symm, ⟨h1, fun c hc => List.mem_takeWhile_imp hc, rfl, h2⟩, ?_⟩
        cases e : x.dropWhile IsDec with
        | nil => decide
        | cons c u =>
          have := List.head_dropWhile_not IsDec (l := x) (by rw [e]; simp)
          simpa [e] using this
      rw [this]
      exact ⟨0, x, .inr (.inr ⟨rfl, rfl, hd⟩), rfl, hx⟩
  · have h1 : peek r ≠ ':' := by
      cases r with
      | nil => decide
      | cons c r => rintro h; exact hc ⟨r, by rw [show c = ':' from h]⟩
    rw [if_neg]
    · exact ⟨0, r, .inl ⟨h1, rfl, rfl⟩, rfl, hr⟩
    · cases r with
      | nil => exact end_peek ht (by decide) (by decide)
      | cons c r => exact h1

theorem source_spec (r t : Str) (hp : r = [] ∨ peek r = '(') (hr : '\n' ∉ r) (ht : LineEnd t) :
    ∃ native file n tail, SourceText r native file n tail ∧ source (r ++ t) = .ok (native, file, n, tail ++ t) ∧ '\n' ∉ tail := by
  unfold source
  cases r with
  | nil =>
    rw [List.nil_append, if_pos (end_peek ht (by decide) (by decide))]
    exact ⟨_, _, _, _, .absent, rfl, by simp⟩
  | cons c x =>
    have hc : c = '(' := hp.resolve_left (by simp)
    subst hc
    have hx : '\n' ∉ x := fun h => hr (by simp [h])
    rw [List.cons_append, if_neg (by simp)]
    show ∃ native file n tail, _ ∧ (Out.ok (x ++ t) >>= _) = _ ∧ _
    rw [Out.bind_ok]
    obtain ⟨src, b, h1, h2⟩ := cut c!":)" x t hx ht
    rw [show c!":)\n" = c!":)" ++ c!"\n" from rfl, h2, Out.bind_ok]
    dsimp only
    obtain ⟨n, tail, k1, k2, k3⟩ := lineNumber_spec b t (h1.clean hx).2 ht
    rw [k2, Out.bind_ok]
    refine ⟨_, _, n, tail, .source h1 k1, ?_, k3⟩
    rw [prefix_before h1 (w := nativeMark) (by decide) (by decide) ht, prefix_before h1 (w := unknownMark) (by decide) (by decide) ht]
    have e : strndup (x ++ t) src.length = src := by rw [strndup, h1.split, List.append_assoc, List.take_left]
    rw [e]
    have e0 : nativeMark <+: src → src ≠ [] := by rintro ⟨z, rfl⟩; simp [nativeMark]
    by_cases hs : src = []
    · subst hs
      simp [show ¬ nativeMark <+: [] from fun h => e0 h rfl]
    · by_cases h3 : nativeMark <+: src <;> by_cases h4 : unknownMark <+: src <;> simp [hs, h3, h4]

/-- C70, one call: it is found exactly if `at` occurs, and is what the line says. -/
theorem C70_exact_frame (s : Str) (f : JavaFrame) (u : Str) : parseFrame s = .ok (some (f, u)) ↔ CallText s f u := by
  have main : ∀ {c}, (strstrLocation s c!"at").1 = some c → ∃ f u, parseFrame s = .ok (some (f, u)) ∧ CallText s f u := by
    intro c hc
    obtain ⟨pre, rest, hf, rfl⟩ := (strstr_some (by decide) (by simp [NoNul])).1 hc
    unfold parseFrame
    rw [hc]
    dsimp only
    have hd : (c!"at" ++ rest).drop 2 = rest := rfl
    rw [hd]
    have hw : ∃ ws, rest = ws ++ skipWs rest ∧ (∀ c ∈ ws, isSpace c = true) ∧ isSpace (peek (skipWs rest)) = false := by
      refine ⟨rest.takeWhile isSpace, List.takeWhile_append_dropWhile.symm, fun c hc => List.mem_takeWhile_imp hc, ?_⟩
      unfold skipWs
      cases e : rest.dropWhile isSpace with
      | nil => decide
      | cons c u =>
        have := List.head_dropWhile_not isSpace (l := rest) (by rw [e]; simp)
        simpa [e] using this
    obtain ⟨ws, hws, h1, h2⟩ := hw
    obtain ⟨l, t, hlt, h3, h4⟩ : ∃ l t, skipWs rest = l ++ t ∧ '\n' ∉ l ∧ LineEnd t := by
      obtain ⟨l, t, h⟩ := upto_exists c!"\n" (skipWs rest)
      exact ⟨l, t, h.split, notin h.before, h.stop.imp id fun h => by simpa using h⟩
    rw [hlt]
    obtain ⟨name, r, k1, k2⟩ := cut c!"(" l t h3 h4
    rw [show c!"(\n" = c!"(" ++ c!"\n" from rfl, k2, Out.bind_ok]
    dsimp only
    have hr := (k1.clean h3).2
    obtain ⟨native, file, n, tail, m1, m2, m3⟩ := source_spec r t (k1.stop.imp id fun h => by simpa using h) hr h4
    rw [m2, Out.bind_ok]
    dsimp only
    obtain ⟨p, b, q1, q2, q3⟩ := frameUrl_spec tail t m3 h4
    rw [q2, Out.bind_ok]
    dsimp only
    rw [lineEnd_read q3 h4, Out.bind_ok]
    have e : strndup (l ++ t) name.length = name := by rw [strndup, k1.split, List.append_assoc, List.take_left]
    rw [e]
    refine ⟨_, _, rfl, pre, ws, l, t, ?_, h1, by rw [← hlt]; exact h2, h3, h4, ⟨name, r, native, file, n, tail, p, k1, m1, q1, ?_⟩, rfl⟩
    · rw [← hlt, ← hws]; exact hf
    · cases name <;> simp
  constructor
  · intro h
    cases hc : (strstrLocation s c!"at").1 with
    | none => unfold parseFrame at h; rw [hc] at h; cases h
    | some c =>
      obtain ⟨f', u', h1, h2⟩ := main hc
      rw [h] at h1
      cases h1
      exact h2
  · intro h
    obtain ⟨pre, ws, l, t, h1, -⟩ := id h
    obtain ⟨f', u', h2, h3⟩ := main ((strstr_some (by decide) (by simp [NoNul])).2 ⟨pre, _, h1, rfl⟩)
    obtain ⟨rfl, rfl⟩ := h3.unique h
    exact h2

theorem skipWs_split (s : Str) : ∃ ws, s = ws ++ skipWs s ∧ (∀ c ∈ ws, isSpace c = true) ∧ isSpace (peek (skipWs s)) = false := by
  refine ⟨s.takeWhile isSpace, List.takeWhile_append_dropWhile.symm, fun c hc => List.mem_takeWhile_imp hc, ?_⟩
  unfold skipWs
  cases e : s.dropWhile isSpace with
  | nil => decide
  | cons c u =>
    have := List.head_dropWhile_not isSpace (l := s) (by rw [e]; simp)
    simpa [e] using this

theorem line_split (s : Str) : ∃ l t, s = l ++ t ∧ '\n' ∉ l ∧ LineEnd t := by
  obtain ⟨l, t, h⟩ := upto_exists c!"\n" s
  exact ⟨l, t, h.split, notin h.before, h.stop.imp id fun h => by simpa using h⟩

theorem newline_end {t : Str} (h : LineEnd t) : newline t = .ok (t.drop 1) := by
  unfold newline
  rcases h with rfl | h
  · rfl
  · rw [if_pos h]
    cases t with
    | nil => cases h
    | cons c t => rfl

theorem skipWs_of {a b : Str} (ha : ∀ c ∈ a, isSpace c = true) (hb : isSpace (peek b) = false) : skipWs (a ++ b) = b := by
  obtain ⟨ws, e, h1, h2⟩ := skipWs_split (a ++ b)
  exact (ws_unique ha hb h1 h2 e).symm

theorem message_spec (x : Str) : ∃ m t, message x = .ok (m, t) ∧ LineEnd t ∧ MessageText x m (t.drop 1) := by
  unfold message
  by_cases hc : peek x = ':'
  · rw [if_pos hc]
    cases x with
    | nil => cases hc
    | cons c x =>
      cases hc
      show ∃ m t, (Out.ok x >>= _) = _ ∧ _
      rw [Out.bind_ok]
      obtain ⟨ws, h1, h2, h3⟩ := skipWs_split x
      obtain ⟨l, t, h4, h5, h6⟩ := line_split (skipWs x)
      dsimp only
      rw [h4, skipCspan_append (notin' h5) (h6.imp id fun h => by simp [h]), Out.bind_ok]
      dsimp only
      rw [strndup, List.take_left]
      refine ⟨_, t, rfl, h6, .inl ⟨ws, l, t, by rw [← h4, ← h1]; rfl, h2, by rw [← h4]; exact h3, h5, h6, ?_, rfl⟩⟩
      cases l <;> simp
  · rw [if_neg hc]
    obtain ⟨l, t, rfl, h5, h6⟩ := line_split x
    rw [skipCspan_append (notin' h5) (h6.imp id fun h => by simp [h]), Out.bind_ok]
    exact ⟨_, t, rfl, h6, .inr ⟨l, t, rfl, hc, h5, h6, rfl, rfl⟩⟩

/-- The first line of an exception: it is missing exactly if there is no name. -/
theorem head_exact (s : Str) : (∃ e u, exceptionHead s = .ok (some (e, u)) ∧ HeadText s e u) ∨
    exceptionHead s = .ok none ∧ ¬ ∃ e u, HeadText s e u := by
  obtain ⟨ws, h1, h2, h3⟩ := skipWs_split s
  obtain ⟨name, x, h4, h5, h6, h7⟩ := span_split (skipWs s) c!": \t\n"
  unfold exceptionHead
  dsimp only
  rw [h7, Out.bind_ok]
  dsimp only
  by_cases hn : name = []
  · subst hn
    refine .inr ⟨rfl, ?_⟩
    rintro ⟨e, u, ws', name', x', m', e', k1, k2, k3, k4, -, -⟩
    have hp : isSpace (peek (name' ++ x')) = false := by
      cases name' with
      | nil => exact absurd rfl k3
      | cons c a => exact k2
    have e2 : skipWs s = name' ++ x' := by rw [e']; exact skipWs_of k1 hp
    rw [List.nil_append] at h4
    rw [← e2, h4] at k4
    exact k3 (k4.unique ⟨rfl, by simp, h6⟩).1
  · rw [if_neg (by simpa using hn)]
    obtain ⟨m, t, k1, k2, k3⟩ := message_spec x
    rw [k1, Out.bind_ok]
    dsimp only
    rw [newline_end k2, Out.bind_ok, strndup, h4, List.take_left]
    refine .inl ⟨_, _, rfl, ws, name, x, m, by rw [← h4]; exact h1, h2, ?_, hn, ⟨rfl, h5, h6⟩, k3, rfl⟩
    rw [h4] at h3
    cases name with
    | nil => exact absurd rfl hn
    | cons c a => exact h3

/-! ### No text is added -/

theorem CallText.suffix {s u : Str} {f : JavaFrame} (h : CallText s f u) : u <:+ s := by
  obtain ⟨pre, ws, l, t, h1, -, -, -, -, -, rfl⟩ := h
  rw [h1.1]
  exact (List.drop_suffix 1 t).trans ⟨pre ++ c!"at" ++ ws ++ l, by simp⟩

theorem HeadText.suffix {s u : Str} {e : JavaFrame} (h : HeadText s e u) : u <:+ s := by
  obtain ⟨ws, name, x, m, rfl, -, -, -, -, h, -⟩ := h
  rcases h with ⟨ws', l, t, rfl, -, -, -, -, -, rfl⟩ | ⟨l, t, rfl, -, -, -, -, rfl⟩
  · exact (List.drop_suffix 1 t).trans ⟨ws ++ name ++ ':' :: ws' ++ l, by simp⟩
  · exact (List.drop_suffix 1 t).trans ⟨ws ++ name ++ l, by simp⟩

theorem skipWs_suffix (s : Str) : skipWs s <:+ s := List.dropWhile_suffix _

theorem noNul_suffix {s u : Str} (h : NoNul s) (hu : u <:+ s) : NoNul u := fun hm => h (hu.subset hm)

/-- The calls: how they end, or that there is a line that is no call. -/
theorem calls_exact : ∀ (fuel : Nat) (s : Str) (acc : List JavaFrame), s.length < fuel → NoNul s →
    (∃ fs en, framesLoop fuel s acc = .ok (some (acc ++ fs, en)) ∧ CallsText s fs en.rest ∧
      match en with | .text u => u = [] | .done u => EndMark u | .cause u => c!"Caused by: " <+: u) ∨
    framesLoop fuel s acc = .ok none ∧ ¬ ∃ fs c, CallsText s fs c
  | 0, s, acc, h, _ => by omega
  | fuel + 1, s, acc, h, hz => by
    rw [framesLoop]
    by_cases hs : s = []
    · subst hs
      exact .inl ⟨[], .text [], by rw [List.append_nil]; rfl, .empty, rfl⟩
    have hp : peek s ≠ '\x00' := by
      cases s with
      | nil => exact absurd rfl hs
      | cons c s => rintro e; exact hz (by rw [show c = '\x00' from e]; simp)
    rw [if_neg hp]
    dsimp only
    have hpre : ∀ w : Str, startsWith (skipWs s) w = true ↔ w <+: skipWs s := fun w => by
      unfold startsWith; rw [List.isPrefixOf_iff_prefix]
    by_cases h1 : EndMark (skipWs s)
    · rw [if_pos (by rw [hpre, hpre]; exact h1)]
      exact .inl ⟨[], .done (skipWs s), by rw [List.append_nil], .mark hs (.inl h1), h1⟩
    · rw [if_neg (by rw [hpre, hpre]; exact h1)]
      by_cases h2 : c!"Caused by: " <+: skipWs s
      · rw [if_pos ((hpre _).2 h2)]
        exact .inl ⟨[], .cause (skipWs s), by rw [List.append_nil], .mark hs (.inr h2), h2⟩
      · rw [if_neg (by rw [hpre]; exact h2)]
        have hm : ¬ (EndMark (skipWs s) ∨ c!"Caused by: " <+: skipWs s) := by rintro (h | h); exacts [h1 h, h2 h]
        obtain ⟨r, hr, hlen⟩ := parseFrame_yields (skipWs s)
        rw [hr, Out.bind_ok]
        cases r with
        | none =>
          refine .inr ⟨rfl, ?_⟩
          rintro ⟨fs, c, k⟩
          cases k with
          | empty => exact hs rfl
          | mark _ k => exact hm k
          | call _ k _ => rw [(C70_exact_frame _ _ _).2 k] at hr; cases hr
        | some x =>
          obtain ⟨f, u⟩ := x
          have hc := (C70_exact_frame _ _ _).1 hr
          have hl := hlen _ rfl
          have hw := skipWs_len s
          dsimp only at hl ⊢
          rcases calls_exact fuel u (acc ++ [f]) (by omega) (noNul_suffix (noNul_suffix hz (skipWs_suffix s)) hc.suffix) with
            ⟨fs, en, k1, k2, k3⟩ | ⟨k1, k2⟩
          · exact .inl ⟨f :: fs, en, by rw [k1]; simp, .call hm hc k2, k3⟩
          · refine .inr ⟨k1, ?_⟩
            rintro ⟨fs, c, k⟩
            cases k with
            | empty => exact hs rfl
            | mark _ k => exact hm k
            | call _ k k' =>
              obtain ⟨rfl, rfl⟩ := k.unique hc
              exact k2 ⟨_, _, k'⟩

theorem nextLine_eq (s : Str) (l : Loc) : ∃ b x, skipToNextLine s l = .ok (b, afterLine s, x) := by
  obtain ⟨a, t, rfl, h1, h2⟩ := line_split s
  have e : afterLine (a ++ t) = t.drop 1 := by
    unfold afterLine
    rw [List.dropWhile_append_of_pos (by intro c hc; simp; rintro rfl; exact h1 hc)]
    rcases h2 with rfl | h2
    · rfl
    · cases t with
      | nil => rfl
      | cons c t =>
        have : c = '\n' := h2
        subst this
        rfl
  unfold skipToNextLine
  rw [skipCspan_append (notin' h1) (h2.imp id fun h => by simp [h]), Out.bind_ok, e]
  dsimp only
  rcases h2 with rfl | h2
  · exact ⟨_, _, rfl⟩
  · rw [if_pos h2]
    cases t with
    | nil => cases h2
    | cons c t => exact ⟨_, _, rfl⟩

theorem afterLine_suffix (s : Str) : afterLine s <:+ s := (List.drop_suffix 1 _).trans (List.dropWhile_suffix _)

theorem afterLine_len {s : Str} (h : s ≠ []) : (afterLine s).length < s.length := by
  unfold afterLine
  rw [List.length_drop]
  have := (List.dropWhile_suffix (fun c : Char => decide (c ≠ '\n')) (l := s)).length_le
  have := List.length_pos_of_ne_nil h
  omega

theorem unindented_exact : ∀ (fuel : Nat) (s : Str), s.length < fuel → ∃ r, skipIndented fuel s = .ok r ∧ Unindented s r
  | 0, s, h => by omega
  | fuel + 1, s, h => by
    rw [skipIndented]
    cases hs : isSpace (peek s) with
    | false => exact ⟨s, rfl, .stop hs⟩
    | true =>
      rw [if_pos rfl]
      obtain ⟨b, x, e⟩ := nextLine_eq s Loc.init
      rw [e, Out.bind_ok]
      have hne : s ≠ [] := by rintro rfl; exact absurd hs (by decide)
      obtain ⟨r, k1, k2⟩ := unindented_exact fuel (afterLine s) (by have := afterLine_len hne; omega)
      exact ⟨r, k1, .line hs k2⟩

theorem Unindented.suffix {s r : Str} (h : Unindented s r) : r <:+ s := by
  induction h with
  | stop _ => exact List.suffix_rfl
  | line _ _ ih => exact ih.trans (afterLine_suffix _)

theorem AfterCalls.suffix {c d : Str} (h : AfterCalls c d) : d <:+ c := by
  have h0 := (skipWs_suffix (afterLine c)).trans (afterLine_suffix c)
  rcases h with ⟨-, rfl⟩ | ⟨-, h⟩
  · exact h0
  · exact (h.suffix.trans (afterLine_suffix _)).trans h0

theorem after_exact (c : Str) : ∃ d, AfterCalls c d ∧
    causedBy (.done c) = .ok (if c!"Caused by: " <+: d then .inr (d.drop 11) else .inl d) := by
  obtain ⟨b, x, e⟩ := nextLine_eq c Loc.init
  have hpre : ∀ s w : Str, startsWith s w = true ↔ w <+: s := fun s w => by unfold startsWith; rw [List.isPrefixOf_iff_prefix]
  have hs : ∃ d, AfterCalls c d ∧ skipSuppressed (skipWs (afterLine c)) = .ok d := by
    unfold skipSuppressed
    by_cases h : c!"Suppressed: " <+: skipWs (afterLine c)
    · rw [if_pos ((hpre _ _).2 h)]
      obtain ⟨b', x', e'⟩ := nextLine_eq (skipWs (afterLine c)) Loc.init
      rw [e', Out.bind_ok]
      obtain ⟨d, k1, k2⟩ := unindented_exact _ (afterLine (skipWs (afterLine c))) (Nat.lt_succ_self _)
      exact ⟨d, .inr ⟨h, k2⟩, k1⟩
    · rw [if_neg (by rw [hpre]; exact h)]
      exact ⟨_, .inl ⟨h, rfl⟩, rfl⟩
  obtain ⟨d, h1, h2⟩ := hs
  refine ⟨d, h1, ?_⟩
  simp only [causedBy]
  rw [e, Out.bind_ok]
  dsimp only
  rw [h2, Out.bind_ok]
  by_cases h : c!"Caused by: " <+: d
  · rw [if_pos ((hpre _ _).2 h), if_pos h]
  · rw [if_neg (by rw [hpre]; exact h), if_neg h]

theorem CallsText.suffix {s c : Str} {fs : List JavaFrame} (h : CallsText s fs c) : c <:+ s := by
  induction h with
  | empty => exact List.suffix_rfl
  | mark _ _ => exact skipWs_suffix _
  | call _ h _ ih => exact (ih.trans h.suffix).trans (skipWs_suffix _)

/-- The chain of exceptions. -/
theorem chain_exact : ∀ (fuel : Nat) (s : Str), s.length < fuel → NoNul s →
    (∃ fs u, parseException fuel s = .ok (some (fs, u)) ∧ ChainText s fs u) ∨
    parseException fuel s = .ok none ∧ ¬ ∃ fs u, ChainText s fs u
  | 0, s, h, _ => by omega
  | fuel + 1, s, h, hz => by
    rw [parseException]
    obtain ⟨r0, hr0, hlen0⟩ := exceptionHead_yields s
    rcases head_exact s with ⟨e, r, h1, h2⟩ | ⟨h1, h2⟩
    · rw [hr0] at h1
      cases h1
      have hl0 := hlen0 _ rfl
      rw [hr0, Out.bind_ok]
      dsimp only at hl0 ⊢
      have hzr := noNul_suffix hz h2.suffix
      rcases calls_exact (r.length + 1) r [] (Nat.lt_succ_self _) hzr with ⟨fs, en, k1, k2, k3⟩ | ⟨k1, k2⟩
      · rw [k1, Out.bind_ok]
        dsimp only
        have step : ∀ d, d <:+ r → (∃ fs u, parseException fuel d = .ok (some (fs, u)) ∧ ChainText d fs u) ∨
            parseException fuel d = .ok none ∧ ¬ ∃ fs u, ChainText d fs u :=
          fun d hd => chain_exact fuel d (by have := hd.length_le; omega) (noNul_suffix hzr hd)
        cases en with
        | text u =>
          have : u = [] := k3
          subst this
          exact .inl ⟨e :: fs, [], rfl, .all h2 k2⟩
        | cause u =>
          obtain ⟨d, rfl⟩ := k3
          have hd : d <:+ r := (List.suffix_append _ d).trans k2.suffix
          show (∃ gs v, (Out.ok (Sum.inr d) >>= _) = _ ∧ _) ∨ (Out.ok (Sum.inr d) >>= _) = _ ∧ _
          simp only [Out.bind_ok]
          rcases step d hd with ⟨inner, v, q1, q2⟩ | ⟨q1, q2⟩
          · rw [q1, Out.bind_ok]
            exact .inl ⟨_, v, rfl, .cause h2 k2 q2⟩
          · rw [q1, Out.bind_ok]
            refine .inr ⟨rfl, ?_⟩
            rintro ⟨gs, v, k⟩
            cases k with
            | all a b => obtain ⟨rfl, rfl⟩ := a.unique h2; have := (b.unique k2).2; simp [Ending.rest] at this
            | more a b c _ _ => obtain ⟨rfl, rfl⟩ := a.unique h2; exact endMark_cause c (b.unique k2).2
            | cause a b c => obtain ⟨rfl, rfl⟩ := a.unique h2; cases List.append_cancel_left (b.unique k2).2; exact q2 ⟨_, _, c⟩
            | moreCause a b c _ _ => obtain ⟨rfl, rfl⟩ := a.unique h2; exact endMark_cause c (b.unique k2).2
        | done c =>
          obtain ⟨d, m1, m2⟩ := after_exact c
          rw [m2, Out.bind_ok]
          by_cases hc : c!"Caused by: " <+: d
          · rw [if_pos hc]
            obtain ⟨x, rfl⟩ := hc
            have hx : (c!"Caused by: " ++ x).drop 11 = x := rfl
            rw [hx]
            dsimp only
            have hd : x <:+ r := ((List.suffix_append _ x).trans m1.suffix).trans k2.suffix
            rcases step x hd with ⟨inner, v, q1, q2⟩ | ⟨q1, q2⟩
            · rw [q1, Out.bind_ok]
              exact .inl ⟨_, v, rfl, .moreCause h2 k2 k3 m1 q2⟩
            · rw [q1, Out.bind_ok]
              refine .inr ⟨rfl, ?_⟩
              rintro ⟨gs, v, k⟩
              cases k with
              | all a b => obtain ⟨rfl, rfl⟩ := a.unique h2; exact endMark_nil ((b.unique k2).2 ▸ k3)
              | more a b _ b' c' =>
                obtain ⟨rfl, rfl⟩ := a.unique h2
                obtain ⟨-, rfl⟩ := b.unique k2
                exact c' ⟨_, m1.unique b'⟩
              | cause a b _ => obtain ⟨rfl, rfl⟩ := a.unique h2; exact endMark_cause k3 (k2.unique b).2
              | moreCause a b _ b' c' =>
                obtain ⟨rfl, rfl⟩ := a.unique h2
                obtain ⟨-, rfl⟩ := b.unique k2
                cases List.append_cancel_left (m1.unique b')
                exact q2 ⟨_, _, c'⟩
          · rw [if_neg hc]
            exact .inl ⟨_, d, rfl, .more h2 k2 k3 m1 hc⟩
      · rw [k1, Out.bind_ok]
        refine .inr ⟨rfl, ?_⟩
        rintro ⟨gs, v, k⟩
        cases k with
        | all a b => obtain ⟨rfl, rfl⟩ := a.unique h2; exact k2 ⟨_, _, b⟩
        | more a b _ _ _ => obtain ⟨rfl, rfl⟩ := a.unique h2; exact k2 ⟨_, _, b⟩
        | cause a b _ => obtain ⟨rfl, rfl⟩ := a.unique h2; exact k2 ⟨_, _, b⟩
        | moreCause a b _ _ _ => obtain ⟨rfl, rfl⟩ := a.unique h2; exact k2 ⟨_, _, b⟩
    · rw [h1, Out.bind_ok]
      refine .inr ⟨rfl, ?_⟩
      rintro ⟨gs, v, k⟩
      cases k with
      | all a _ => exact h2 ⟨_, _, a⟩
      | more a _ _ _ _ => exact h2 ⟨_, _, a⟩
      | cause a _ _ => exact h2 ⟨_, _, a⟩
      | moreCause a _ _ _ _ => exact h2 ⟨_, _, a⟩

/-- C70: the texts that are read as Java stack traces are those of the grammar, with the thread, the exceptions and the calls that it
says. -/
theorem C70_exact (s : Str) (hz : NoNul s) (t : JavaThread) (rest : Str) : parseThread s = .ok (some (t, rest)) ↔ TraceText s t rest := by
  have main : (∃ t rest, parseThread s = .ok (some (t, rest)) ∧ TraceText s t rest) ∨
      parseThread s = .ok none ∧ ¬ ∃ t rest, TraceText s t rest := by
    unfold parseThread threadName
    by_cases hs : ∃ x, s = c!"Exception in thread \"" ++ x
    · obtain ⟨x, rfl⟩ := hs
      rw [skipString_append]
      dsimp only
      rw [if_neg (by simp)]
      obtain ⟨n, y, rfl, h1, h2, h3⟩ := span_split x c!"\"\n"
      rw [h3, Out.bind_ok]
      dsimp only
      have hq : '"' ∉ n := fun h => h1 _ h (by simp)
      have hn : '\n' ∉ n := fun h => h1 _ h (by simp)
      by_cases hy : ∃ u, y = '"' :: u
      · obtain ⟨u, rfl⟩ := hy
        rw [if_neg (by simp)]
        show (∃ t rest, ((Out.ok u >>= _) >>= _) = _ ∧ _) ∨ ((Out.ok u >>= _) >>= _) = _ ∧ _
        simp only [Out.bind_ok]
        rw [strndup, List.take_left]
        have hzu : NoNul u := noNul_suffix hz ⟨c!"Exception in thread \"" ++ n ++ c!"\"", by simp⟩
        rcases chain_exact (u.length + 1) u (Nat.lt_succ_self _) hzu with ⟨fs, v, k1, k2⟩ | ⟨k1, k2⟩
        · rw [k1, Out.bind_ok]
          exact .inl ⟨⟨some n, fs⟩, v, rfl, .inl ⟨n, u, rfl, hq, hn, rfl, k2⟩⟩
        · rw [k1, Out.bind_ok]
          refine .inr ⟨rfl, ?_⟩
          rintro ⟨t, v, ⟨n', u', e, a, b, c, d⟩ | ⟨a, -⟩⟩
          · obtain ⟨rfl, rfl⟩ := first_unique (List.append_cancel_left e) hq a
            exact k2 ⟨_, _, d⟩
          · exact a ⟨_, rfl⟩
      · have hp : peek y ≠ '"' := by
          cases y with
          | nil => decide
          | cons c y => rintro h; exact hy ⟨y, by rw [show c = '"' from h]⟩
        rw [if_pos hp, Out.bind_ok]
        refine .inr ⟨rfl, ?_⟩
        rintro ⟨t, v, ⟨n', u', e, a, b, c, d⟩ | ⟨a, -⟩⟩
        · have e := List.append_cancel_left e
          have e1 : Upto c!"\"\n" (n ++ y) n y := ⟨rfl, h1, h2⟩
          have e2 : Upto c!"\"\n" (n ++ y) n' ('"' :: u') := ⟨e, not_in a b, .inr (by simp)⟩
          exact hy ⟨u', (e1.unique e2).2⟩
        · exact a ⟨_, rfl⟩
    · rw [skipString_fail hs]
      dsimp only
      rw [if_pos rfl, Out.bind_ok]
      dsimp only
      have hp : ¬ c!"Exception in thread \"" <+: s := fun ⟨x, e⟩ => hs ⟨x, e.symm⟩
      rcases chain_exact (s.length + 1) s (Nat.lt_succ_self _) hz with ⟨fs, v, k1, k2⟩ | ⟨k1, k2⟩
      · rw [k1, Out.bind_ok]
        exact .inl ⟨⟨none, fs⟩, v, rfl, .inr ⟨hp, rfl, k2⟩⟩
      · rw [k1, Out.bind_ok]
        refine .inr ⟨rfl, ?_⟩
        rintro ⟨t, v, ⟨n', u', e, -⟩ | ⟨-, -, a⟩⟩
        · exact hs ⟨_, e⟩
        · exact k2 ⟨_, _, a⟩
  constructor
  · intro h
    rcases main with ⟨t', r', h1, h2⟩ | ⟨h1, -⟩
    · rw [h] at h1; cases h1; exact h2
    · rw [h] at h1; cases h1
  · intro h
    rcases main with ⟨t', r', h1, h2⟩ | ⟨-, h2⟩
    · obtain ⟨rfl, rfl⟩ := C70_unique h h2; exact h1
    · exact absurd ⟨_, _, h⟩ h2

/-- C70: the other texts are rejected. -/
theorem C70_rejects (s : Str) (hz : NoNul s) : parseThread s = .ok none ↔ ∀ t rest, ¬ TraceText s t rest := by
  obtain ⟨r, hr⟩ := C56_java_trace s
  constructor
  · intro h t rest k
    rw [(C70_exact s hz t rest).2 k] at h
    cases h
  · intro h
    cases r with
    | none => exact hr
    | some x => exact absurd ((C70_exact s hz x.1 x.2).1 hr) (h _ _)

/-- A trace with a thread, a cause, calls in common, and a text after it. -/
example : TraceText c!"Exception in thread \"main\" a.E: b\n\tat f(A.java:1)\nCaused by: a.D\n\tat g(Native Method) [jar:file:/x.jar!/y]\n\t... 2 more\nrest"
    ⟨some c!"main", [{ name := some c!"a.D", isException := true }, { name := some c!"g", isNative := true, classPath := some c!"/x.jar" },
      { name := some c!"a.E", message := some c!"b", isException := true }, { name := some c!"f", fileName := some c!"A.java", fileLine := 1 }]⟩
    c!"rest" :=
  (C70_exact _ (by unfold NoNul; decide) _ _).1 (by decide +kernel)

/-- A trace by the grammar alone: an exception with one call. -/
example : TraceText c!"E: m\n\tat f(A:7)" ⟨none, [{ name := some c!"E", isException := true, message := some c!"m" },
    { name := some c!"f", fileName := some c!"A", fileLine := 7 }]⟩ [] := by
  refine .inr ⟨by decide, rfl, .all (r := c!"\tat f(A:7)") ?_ (.call (f := { name := some c!"f", fileName := some c!"A", fileLine := 7 }) (u := []) ?_ ?_ .empty)⟩
  · exact ⟨[], c!"E", c!": m\n\tat f(A:7)", some c!"m", rfl, by simp, by decide, by decide, ⟨rfl, by decide, .inr (by decide)⟩,
      .inl ⟨c!" ", c!"m", c!"\n\tat f(A:7)", rfl, by decide, by decide, by decide, .inr rfl, by decide, rfl⟩, rfl⟩
  · unfold EndMark; decide
  · refine ⟨[], c!" ", c!"f(A:7)", [], ⟨rfl, ?_⟩, by decide, by decide, by decide, .inl rfl, ?_, rfl⟩
    · rintro x y e; exact Nat.zero_le _
    · exact ⟨c!"f", c!"(A:7)", false, some c!"A", 7, c!")", none, ⟨rfl, by decide, .inr (by decide)⟩,
        .source (src := c!"A") (r := c!":7)") ⟨rfl, by decide, .inr (by decide)⟩ (.inr (.inl ⟨c!"7", rfl, ⟨by decide, by decide, by decide, by decide⟩, by decide⟩)),
        .absent (by decide), rfl⟩

end Satyr.Text.Java
