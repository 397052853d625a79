import Verif.Hash.Model
import Verif.CStr.Num
/-!
# The backtrace hash text identifies the stack trace (C20)
-/
namespace Satyr.Hash
open Satyr Satyr.CStr Satyr.Frames Satyr.Normalize

/-! ## Specification -/

/-- An attribute that cannot be confused with the separators or with a missing attribute. -/
def Plain (o : Option Str) : Prop := ∀ s, o = some s → ',' ∉ s ∧ '\n' ∉ s ∧ s ≠ c!"<unknown>"

/-- The attributes of a GDB frame shown in the text. -/
def gdbShown (f : GdbFrame) :=
  (f.functionName, f.functionType, f.number, f.sourceFile, f.sourceLine, f.signalHandlerCalled, f.address, f.libraryName)

/-- The attributes of a core frame shown in the text. -/
def coreShown (f : CoreFrame) := (f.address, f.buildId, f.buildIdOffset, f.fileName, f.fingerprint)

/-- The attributes of a kernel oops frame shown in the text. -/
def koopsShown (f : KoopsFrame) :=
  (f.address, f.reliable, f.functionName, f.functionOffset, f.functionLength, f.moduleName, f.fromAddress,
    f.fromFunctionName, f.fromFunctionOffset, f.fromFunctionLength, f.fromModuleName)

/-- The attributes of a JavaScript frame shown in the text. -/
def jsShown (f : JsFrame) := (f.fileName, f.fileLine, f.functionName)

def GdbPlain (f : GdbFrame) : Prop :=
  Plain f.functionName ∧ Plain f.functionType ∧ Plain f.sourceFile ∧ Plain f.libraryName

def CorePlain (f : CoreFrame) : Prop := Plain f.buildId ∧ Plain f.fileName ∧ Plain f.fingerprint

def KoopsPlain (f : KoopsFrame) : Prop :=
  Plain f.functionName ∧ Plain f.moduleName ∧ Plain f.fromFunctionName ∧ Plain f.fromModuleName

def PythonPlain (f : PythonFrame) : Prop := Plain f.fileName ∧ Plain f.functionName ∧ Plain f.lineContents

def JavaPlain (f : JavaFrame) : Prop := Plain f.name ∧ Plain f.fileName ∧ Plain f.classPath ∧ Plain f.message

def RubyPlain (f : RubyFrame) : Prop := Plain f.fileName ∧ Plain f.functionName

def JsPlain (f : JsFrame) : Prop := Plain f.fileName ∧ Plain f.functionName

/-! ## Splitting at separators -/

theorem split_unique {p : Char → Bool} : ∀ {a b : Str} {x y : Char} {r r' : Str}, (∀ c ∈ a, p c = false) →
    (∀ c ∈ b, p c = false) → p x = true → p y = true → a ++ x :: r = b ++ y :: r' → a = b ∧ x = y ∧ r = r'
  | [], [], x, y, r, r', _, _, _, _, h => by simpa using h
  | [], d :: b, x, y, r, r', _, hb, hx, _, h => by
    simp at h; rw [h.1, hb d (by simp)] at hx; cases hx
  | c :: a, [], x, y, r, r', ha, _, _, hy, h => by
    simp at h; rw [← h.1, ha c (by simp)] at hy; cases hy
  | c :: a, d :: b, x, y, r, r', ha, hb, hx, hy, h => by
    simp at h
    have := split_unique (fun c h => ha c (by simp [h])) (fun c h => hb c (by simp [h])) hx hy h.2
    exact ⟨by rw [h.1, this.1], this.2⟩

/-- A separator of the text. -/
def isSep (c : Char) : Bool := c == ',' || c == '\n'

/-- No separators inside. -/
def NoSep (s : Str) : Prop := ∀ c ∈ s, isSep c = false

instance (s : Str) : Decidable (NoSep s) := by unfold NoSep; infer_instance

theorem joinFields_shape (a : Str) (l : List Str) : ∃ x r, isSep x = true ∧ joinFields (a :: l) = a ++ x :: r := by
  cases l with
  | nil => exact ⟨'\n', [], rfl, rfl⟩
  | cons b l => exact ⟨',', ' ' :: joinFields (b :: l), rfl, by simp [joinFields]⟩

/-- Lines with the same number of fields are equal only if the fields are. -/
theorem joinFields_inj : ∀ (xs ys : List Str) (r r' : Str), xs.length = ys.length → (∀ x ∈ xs, NoSep x) → (∀ y ∈ ys, NoSep y) →
    joinFields xs ++ r = joinFields ys ++ r' → xs = ys ∧ r = r'
  | [], [], r, r', _, _, _, h => by simpa [joinFields] using h
  | [a], [b], r, r', _, hx, hy, h => by
    simp only [joinFields, List.append_assoc] at h
    have := split_unique (p := isSep) (hx a (by simp)) (hy b (by simp)) rfl rfl h
    exact ⟨by rw [this.1], by simpa using this.2.2⟩
  | a :: a' :: xs, b :: b' :: ys, r, r', hl, hx, hy, h => by
    simp only [joinFields, List.append_assoc] at h
    have h1 := split_unique (p := isSep) (hx a (by simp)) (hy b (by simp)) rfl rfl h
    have h2 := joinFields_inj (a' :: xs) (b' :: ys) r r' (by simpa using hl) (fun x h => hx x (by simp [h]))
      (fun y h => hy y (by simp [h])) (by simpa using h1.2.2)
    exact ⟨by rw [h1.1, h2.1], h2.2⟩
  | [], _ :: _, _, _, hl, _, _, _ => by simp at hl
  | _ :: _, [], _, _, hl, _, _, _ => by simp at hl
  | [_], _ :: _ :: _, _, _, hl, _, _, _ => by simp at hl
  | _ :: _ :: _, [_], _, _, hl, _, _, _ => by simp at hl

theorem joinFields_read {xs ys : List Str} {r r' : Str} (e : joinFields xs ++ r = joinFields ys ++ r')
    (hl : xs.length = ys.length) (hx : ∀ x ∈ xs, NoSep x) (hy : ∀ y ∈ ys, NoSep y) : xs = ys ∧ r = r' :=
  joinFields_inj xs ys r r' hl hx hy e

/-- Lines of nonempty fields are equal only if the fields are. -/
theorem joinFields_inj' : ∀ (xs ys : List Str) (r r' : Str), (∀ x ∈ xs, NoSep x ∧ x ≠ []) → (∀ y ∈ ys, NoSep y ∧ y ≠ []) →
    joinFields xs ++ r = joinFields ys ++ r' → xs = ys ∧ r = r'
  | [], [], r, r', _, _, h => by simpa [joinFields] using h
  | [], b :: ys, r, r', _, hy, h => by
    obtain ⟨x, q, hx, hq⟩ := joinFields_shape b ys
    rw [hq] at h
    simp only [joinFields, List.append_assoc, List.cons_append] at h
    have := split_unique (p := isSep) (a := []) (by simp) (hy b (by simp)).1 rfl hx h
    exact absurd this.1.symm (hy b (by simp)).2
  | a :: xs, [], r, r', hx, _, h => by
    obtain ⟨x, q, hx', hq⟩ := joinFields_shape a xs
    rw [hq] at h
    simp only [joinFields, List.append_assoc, List.cons_append] at h
    have := split_unique (p := isSep) (b := []) (hx a (by simp)).1 (by simp) hx' rfl h
    exact absurd this.1 (hx a (by simp)).2
  | [a], [b], r, r', hx, hy, h =>
    joinFields_inj [a] [b] r r' rfl (fun x h => (hx x h).1) (fun x h => (hy x h).1) h
  | [a], b :: b' :: ys, r, r', hx, hy, h => by
    simp only [joinFields, List.append_assoc] at h
    have := split_unique (p := isSep) (hx a (by simp)).1 (hy b (by simp)).1 rfl rfl h
    exact absurd this.2.1 (by decide)
  | a :: a' :: xs, [b], r, r', hx, hy, h => by
    simp only [joinFields, List.append_assoc] at h
    have := split_unique (p := isSep) (hx a (by simp)).1 (hy b (by simp)).1 rfl rfl h
    exact absurd this.2.1 (by decide)
  | a :: a' :: xs, b :: b' :: ys, r, r', hx, hy, h => by
    simp only [joinFields, List.append_assoc] at h
    have h1 := split_unique (p := isSep) (hx a (by simp)).1 (hy b (by simp)).1 rfl rfl h
    have h2 := joinFields_inj' (a' :: xs) (b' :: ys) r r' (fun x h => hx x (by simp [h]))
      (fun y h => hy y (by simp [h])) (by simpa using h1.2.2)
    exact ⟨by rw [h1.1, h2.1], h2.2⟩

/-! ## Fields -/

theorem noSep_of_plain {o : Option Str} (h : Plain o) : NoSep (orUnknown o) := by
  cases o with
  | none => decide
  | some s =>
    intro c hc
    obtain ⟨h1, h2, _⟩ := h s rfl
    simp only [isSep, Bool.or_eq_false_iff, beq_eq_false_iff_ne]
    exact ⟨fun e => h1 (e ▸ hc), fun e => h2 (e ▸ hc)⟩

theorem orUnknown_inj {o p : Option Str} (ho : Plain o) (hp : Plain p) (h : orUnknown o = orUnknown p) : o = p := by
  cases o with
  | none =>
    cases p with
    | none => rfl
    | some s => exact absurd h.symm (hp s rfl).2.2
  | some s =>
    cases p with
    | none => exact absurd h (ho s rfl).2.2
    | some t => exact congrArg some h

theorem isDec_noSep {c : Char} (h : IsDec c = true) : isSep c = false ∧ c ≠ '-' ∧ c ≠ '+' := by
  simp only [IsDec, List.contains_iff_mem] at h
  revert c; decide

theorem hex_cases : ∀ c ∈ digits16, isSep c = false ∧ c ≠ '-' ∧ c ≠ '+' ∧ c ≠ 'x' := by decide

theorem isHex_noSep {c : Char} (h : IsHex c = true) : isSep c = false ∧ c ≠ '-' ∧ c ≠ '+' ∧ c ≠ 'x' := by
  have : digits16.contains c = true := by rw [← h]; exact congrFun span16 c
  exact hex_cases c (by simpa using this)

theorem noSep_natDec (n : Nat) : NoSep (natDec n) := fun c hc => (isDec_noSep ((natDec_spec n).1 c hc)).1

theorem noSep_natHex (n : Nat) : NoSep (natHex n) := fun c hc => (isHex_noSep ((natHex_spec n).1 c hc)).1

theorem noSep_hex0x (n : Nat) : NoSep (hex0x n) := by
  intro c hc
  simp only [hex0x, List.cons_append, List.nil_append, List.mem_cons] at hc
  rcases hc with rfl | rfl | hc
  · decide
  · decide
  · exact noSep_natHex n c hc

theorem noSep_bool (b : Bool) : NoSep (boolDec b) := by cases b <;> decide

theorem hex0x_inj {a b : Nat} (h : hex0x a = hex0x b) : a = b := by
  simp only [hex0x, List.cons_append, List.nil_append, List.cons.injEq, true_and] at h
  exact natHex_injective h

theorem bool_inj {a b : Bool} (h : boolDec a = boolDec b) : a = b := by cases a <;> cases b <;> revert h <;> decide

/-! ## Lists of lines -/

/-- A text from whose beginning the shown attributes can be recovered, and which does not look like a blank line. -/
structure Readable {F K : Type} (P : F → Prop) (text : F → Str) (key : F → K) : Prop where
  read : ∀ f g r r', P f → P g → text f ++ r = text g ++ r' → key f = key g ∧ r = r'
  start : ∀ f, P f → ∃ c r, text f = c :: r ∧ c ≠ '\n'
  only : ∀ f g, key f = key g → text f = text g

/-- Nothing, or a blank line and more. -/
def Stop (s : Str) : Prop := s = [] ∨ ∃ r, s = '\n' :: r

theorem lines_inj {F K : Type} {P : F → Prop} {text : F → Str} {key : F → K} (h : Readable P text key) :
    ∀ (fs gs : List F) (s s' : Str), (∀ f ∈ fs, P f) → (∀ g ∈ gs, P g) → Stop s → Stop s' →
    fs.flatMap text ++ s = gs.flatMap text ++ s' → fs.map key = gs.map key ∧ s = s'
  | [], [], s, s', _, _, _, _, e => by simpa using e
  | [], g :: gs, s, s', _, hg, hs, _, e => by
    obtain ⟨c, r, hc, hn⟩ := h.start g (hg g (by simp))
    simp only [List.flatMap_nil, List.nil_append, List.flatMap_cons, hc] at e
    rcases hs with rfl | ⟨q, rfl⟩
    · simp at e
    · simp at e; exact absurd e.1.symm hn
  | f :: fs, [], s, s', hf, _, _, hs, e => by
    obtain ⟨c, r, hc, hn⟩ := h.start f (hf f (by simp))
    simp only [List.flatMap_nil, List.nil_append, List.flatMap_cons, hc] at e
    rcases hs with rfl | ⟨q, rfl⟩
    · simp at e
    · simp at e; exact absurd e.1 hn
  | f :: fs, g :: gs, s, s', hf, hg, hs, hs', e => by
    simp only [List.flatMap_cons, List.append_assoc] at e
    have h1 := h.read f g _ _ (hf f (by simp)) (hg g (by simp)) e
    have h2 := lines_inj h fs gs s s' (fun f h => hf f (by simp [h])) (fun g h => hg g (by simp [h])) hs hs' h1.2
    exact ⟨by simp [h1.1, h2.1], h2.2⟩

theorem lines_only {F K : Type} {P : F → Prop} {text : F → Str} {key : F → K} (h : Readable P text key) :
    ∀ (fs gs : List F), fs.map key = gs.map key → fs.flatMap text = gs.flatMap text
  | [], [], _ => rfl
  | [], _ :: _, e => by simp at e
  | _ :: _, [], e => by simp at e
  | f :: fs, g :: gs, e => by
    simp only [List.map_cons, List.cons.injEq] at e
    simp only [List.flatMap_cons, h.only f g e.1, lines_only h fs gs e.2]

section Threads
variable {T F K H : Type} {P : F → Prop} {text : F → Str} {key : F → K} {head : T → Str} {hkey : T → H} {Q : T → Prop}
  {frames : T → List F}

/-- The text of a thread structure can be read back. -/
def HeadReadable (Q : T → Prop) (head : T → Str) (hkey : T → H) : Prop :=
  ∀ t u r r', Q t → Q u → head t ++ r = head u ++ r' → hkey t = hkey u ∧ r = r'

theorem threadsBt_inj (hh : HeadReadable Q head hkey) (h : Readable P text key) :
    ∀ (ts us : List T), ts ≠ [] → us ≠ [] → (∀ t ∈ ts, Q t ∧ ∀ f ∈ frames t, P f) → (∀ t ∈ us, Q t ∧ ∀ f ∈ frames t, P f) →
    threadsBt head frames text ts = threadsBt head frames text us →
    ts.map (fun t => (hkey t, (frames t).map key)) = us.map (fun t => (hkey t, (frames t).map key))
  | [], _, h0, _, _, _, _ => absurd rfl h0
  | _ :: _, [], _, h0, _, _, _ => absurd rfl h0
  | [t], [u], _, _, ht, hu, e => by
    simp only [threadsBt] at e
    have h1 := hh t u _ _ (ht t (by simp)).1 (hu u (by simp)).1 e
    have h2 := lines_inj h (frames t) (frames u) [] [] (ht t (by simp)).2 (hu u (by simp)).2 (.inl rfl) (.inl rfl)
      (by simpa using h1.2)
    simp [h1.1, h2.1]
  | [t], u :: u' :: us, _, _, ht, hu, e => by
    simp only [threadsBt, List.append_assoc] at e
    have h1 := hh t u _ _ (ht t (by simp)).1 (hu u (by simp)).1 e
    have h2 := lines_inj h (frames t) (frames u) [] _ (ht t (by simp)).2 (hu u (by simp)).2 (.inl rfl) (.inr ⟨_, rfl⟩)
      (by simpa using h1.2)
    exact absurd h2.2 (by simp)
  | t :: t' :: ts, [u], _, _, ht, hu, e => by
    simp only [threadsBt, List.append_assoc] at e
    have h1 := hh t u _ _ (ht t (by simp)).1 (hu u (by simp)).1 e
    have h2 := lines_inj h (frames t) (frames u) _ [] (ht t (by simp)).2 (hu u (by simp)).2 (.inr ⟨_, rfl⟩) (.inl rfl)
      (by simpa using h1.2)
    exact absurd h2.2 (by simp)
  | t :: t' :: ts, u :: u' :: us, _, _, ht, hu, e => by
    simp only [threadsBt, List.append_assoc] at e
    have h1 := hh t u _ _ (ht t (by simp)).1 (hu u (by simp)).1 e
    have h2 := lines_inj h (frames t) (frames u) _ _ (ht t (by simp)).2 (hu u (by simp)).2 (.inr ⟨_, rfl⟩) (.inr ⟨_, rfl⟩)
      h1.2
    have h3 := threadsBt_inj hh h (t' :: ts) (u' :: us) (by simp) (by simp) (fun t h => ht t (by simp [h]))
      (fun t h => hu t (by simp [h])) (by simpa using h2.2)
    rw [List.map_cons, h3, h1.1, h2.1]; rfl

theorem threadsBt_only (hh : ∀ t u, hkey t = hkey u → head t = head u) (h : Readable P text key) :
    ∀ (ts us : List T), ts.map (fun t => (hkey t, (frames t).map key)) = us.map (fun t => (hkey t, (frames t).map key)) →
    threadsBt head frames text ts = threadsBt head frames text us
  | [], [], _ => rfl
  | [], _ :: _, e => by simp at e
  | _ :: _, [], e => by simp at e
  | [t], [u], e => by
    simp only [List.map_cons, List.cons.injEq, Prod.mk.injEq] at e
    simp only [threadsBt, hh t u e.1.1, lines_only h _ _ e.1.2]
  | [_], _ :: _ :: _, e => by simp at e
  | _ :: _ :: _, [_], e => by simp at e
  | t :: t' :: ts, u :: u' :: us, e => by
    simp only [List.map_cons] at e
    injection e with e1 e2
    injection e1 with e1 e1'
    have ih := threadsBt_only hh h (t' :: ts) (u' :: us) (by simpa using e2)
    have hc : ∀ (a b : T) l, threadsBt head frames text (a :: b :: l) =
        head a ++ (frames a).flatMap text ++ c!"\n" ++ threadsBt head frames text (b :: l) := fun _ _ _ => rfl
    rw [hc, hc, hh t u e1, lines_only h _ _ e1', ih]

end Threads

/-! ## Frames -/

theorem start_of_join (a b : Str) (l : List Str) (ha : NoSep a) : ∃ c r, joinFields (a :: b :: l) = c :: r ∧ c ≠ '\n' := by
  cases a with
  | nil => exact ⟨',', _, rfl, by decide⟩
  | cons c a =>
    refine ⟨c, _, rfl, fun e => ?_⟩
    have := ha c (by simp)
    rw [e] at this; exact absurd this (by decide)

theorem gdb_readable : Readable GdbPlain gdbFrameBt gdbShown where
  read f g r r' hf hg e := by
    obtain ⟨f1, f2, f3, f4⟩ := hf
    obtain ⟨g1, g2, g3, g4⟩ := hg
    have := joinFields_read e rfl (by simp [noSep_of_plain, noSep_natDec, noSep_hex0x, noSep_bool, *])
      (by simp [noSep_of_plain, noSep_natDec, noSep_hex0x, noSep_bool, *])
    simp only [List.cons.injEq, and_true] at this
    obtain ⟨⟨h1, h2, h3, h4, h5, h6, h7, h8⟩, h9⟩ := this
    simp only [gdbShown, orUnknown_inj f1 g1 h1, orUnknown_inj f2 g2 h2, natDec_injective h3, orUnknown_inj f3 g3 h4,
      natDec_injective h5, bool_inj h6, hex0x_inj h7, orUnknown_inj f4 g4 h8, h9, and_self]
  start f hf := start_of_join _ _ _ (noSep_of_plain hf.1)
  only f g e := by
    simp only [gdbShown, Prod.mk.injEq] at e
    obtain ⟨h1, h2, h3, h4, h5, h6, h7, h8⟩ := e
    simp only [gdbFrameBt, h1, h2, h3, h4, h5, h6, h7, h8]

theorem noSep_append {a b : Str} (ha : NoSep a) (hb : NoSep b) : NoSep (a ++ b) := fun c hc =>
  (List.mem_append.1 hc).elim (ha c) (hb c)

theorem noSep_build (o : Option Str) (n : Nat) (h : Plain o) : NoSep (orUnknown o ++ c!"+" ++ hex0x n) :=
  noSep_append (noSep_append (noSep_of_plain h) (by decide)) (noSep_hex0x n)

/-- The offset after the last plus sign. -/
theorem build_inj {a b : Str} {m n : Nat} (h : a ++ c!"+" ++ hex0x m = b ++ c!"+" ++ hex0x n) : a = b ∧ m = n := by
  have hx : ∀ k, ∀ c ∈ (hex0x k).reverse, (c == '+') = false := by
    intro k c hc
    simp only [hex0x, List.reverse_append, List.mem_append, List.mem_reverse, List.mem_cons, List.not_mem_nil, or_false] at hc
    rcases hc with hc | rfl | rfl
    · simpa using (isHex_noSep ((natHex_spec k).1 c hc)).2.2.1
    · decide
    · decide
  have hr := congrArg List.reverse h
  simp only [List.reverse_append, List.reverse_cons, List.reverse_nil, List.nil_append, List.cons_append] at hr
  have := split_unique (p := fun c => c == '+') (hx m) (hx n) rfl rfl hr
  exact ⟨List.reverse_injective this.2.2, hex0x_inj (List.reverse_injective this.1)⟩

theorem noSep_addr (n : Nat) : NoSep (if n ≠ 0 then hex0x n else c!"<unknown>") := by
  split
  · exact noSep_hex0x n
  · decide

theorem addr_inj {m n : Nat} (h : (if m ≠ 0 then hex0x m else c!"<unknown>") = if n ≠ 0 then hex0x n else c!"<unknown>") :
    m = n := by
  split at h <;> split at h
  · exact hex0x_inj h
  · simp [hex0x] at h
  · simp [hex0x] at h
  · simp_all

theorem core_readable : Readable CorePlain coreFrameBt coreShown where
  read f g r r' hf hg e := by
    obtain ⟨f1, f2, f3⟩ := hf
    obtain ⟨g1, g2, g3⟩ := hg
    have := joinFields_read e rfl
      (by simp only [List.forall_mem_cons]; exact ⟨noSep_addr _, noSep_build _ _ f1, noSep_of_plain f2, noSep_of_plain f3, by simp⟩)
      (by simp only [List.forall_mem_cons]; exact ⟨noSep_addr _, noSep_build _ _ g1, noSep_of_plain g2, noSep_of_plain g3, by simp⟩)
    simp only [List.cons.injEq, and_true] at this
    obtain ⟨⟨h1, h2, h3, h4⟩, h5⟩ := this
    have h2 := build_inj h2
    simp only [coreShown, addr_inj h1, orUnknown_inj f1 g1 h2.1, h2.2, orUnknown_inj f2 g2 h3, orUnknown_inj f3 g3 h4, h5, and_self]
  start f hf := start_of_join _ _ _ (noSep_addr _)
  only f g e := by
    simp only [coreShown, Prod.mk.injEq] at e
    obtain ⟨h1, h2, h3, h4, h5⟩ := e
    simp only [coreFrameBt, h1, h2, h3, h4, h5]

theorem koops_readable : Readable KoopsPlain koopsFrameBt koopsShown where
  read f g r r' hf hg e := by
    obtain ⟨f1, f2, f3, f4⟩ := hf
    obtain ⟨g1, g2, g3, g4⟩ := hg
    have := joinFields_read e rfl (by simp [noSep_of_plain, noSep_hex0x, noSep_bool, *])
      (by simp [noSep_of_plain, noSep_hex0x, noSep_bool, *])
    simp only [List.cons.injEq, and_true] at this
    obtain ⟨⟨h1, h2, h3, h4, h5, h6, h7, h8, h9, h10, h11⟩, h12⟩ := this
    simp only [koopsShown, hex0x_inj h1, bool_inj h2, orUnknown_inj f1 g1 h3, hex0x_inj h4, hex0x_inj h5,
      orUnknown_inj f2 g2 h6, hex0x_inj h7, orUnknown_inj f3 g3 h8, hex0x_inj h9, hex0x_inj h10, orUnknown_inj f4 g4 h11,
      h12, and_self]
  start f hf := start_of_join _ _ _ (noSep_hex0x _)
  only f g e := by
    simp only [koopsShown, Prod.mk.injEq] at e
    obtain ⟨h1, h2, h3, h4, h5, h6, h7, h8, h9, h10, h11⟩ := e
    simp only [koopsFrameBt, h1, h2, h3, h4, h5, h6, h7, h8, h9, h10, h11]

theorem python_readable : Readable PythonPlain pythonFrameBt id where
  read f g r r' hf hg e := by
    obtain ⟨f1, f2, f3⟩ := hf
    obtain ⟨g1, g2, g3⟩ := hg
    have := joinFields_read e rfl (by simp [noSep_of_plain, noSep_natDec, noSep_bool, *])
      (by simp [noSep_of_plain, noSep_natDec, noSep_bool, *])
    simp only [List.cons.injEq, and_true] at this
    obtain ⟨⟨h1, h2, h3, h4, h5, h6⟩, h7⟩ := this
    have i1 := orUnknown_inj f1 g1 h1
    have i2 := bool_inj h2
    have i3 := natDec_injective h3
    have i4 := orUnknown_inj f2 g2 h4
    have i5 := bool_inj h5
    have i6 := orUnknown_inj f3 g3 h6
    cases f; cases g; simp_all
  start f hf := start_of_join _ _ _ (noSep_of_plain hf.1)
  only f g e := by rw [show f = g from e]

theorem java_readable : Readable JavaPlain javaFrameBt id where
  read f g r r' hf hg e := by
    obtain ⟨f1, f2, f3, f4⟩ := hf
    obtain ⟨g1, g2, g3, g4⟩ := hg
    have := joinFields_read e rfl (by simp [noSep_of_plain, noSep_natDec, noSep_bool, *])
      (by simp [noSep_of_plain, noSep_natDec, noSep_bool, *])
    simp only [List.cons.injEq, and_true] at this
    obtain ⟨⟨h1, h2, h3, h4, h5, h6, h7⟩, h8⟩ := this
    have i1 := orUnknown_inj f1 g1 h1
    have i2 := orUnknown_inj f2 g2 h2
    have i3 := natDec_injective h3
    have i4 := orUnknown_inj f3 g3 h4
    have i5 := bool_inj h5
    have i6 := bool_inj h6
    have i7 := orUnknown_inj f4 g4 h7
    cases f; cases g; simp_all
  start f hf := start_of_join _ _ _ (noSep_of_plain hf.1)
  only f g e := by rw [show f = g from e]

theorem ruby_readable : Readable RubyPlain rubyFrameBt id where
  read f g r r' hf hg e := by
    obtain ⟨f1, f2⟩ := hf
    obtain ⟨g1, g2⟩ := hg
    have := joinFields_read e rfl (by simp [noSep_of_plain, noSep_natDec, noSep_bool, *])
      (by simp [noSep_of_plain, noSep_natDec, noSep_bool, *])
    simp only [List.cons.injEq, and_true] at this
    obtain ⟨⟨h1, h2, h3, h4, h5, h6⟩, h7⟩ := this
    have i1 := orUnknown_inj f1 g1 h1
    have i2 := natDec_injective h2
    have i3 := orUnknown_inj f2 g2 h3
    have i4 := bool_inj h4
    have i5 := natDec_injective h5
    have i6 := natDec_injective h6
    cases f; cases g; simp_all
  start f hf := start_of_join _ _ _ (noSep_of_plain hf.1)
  only f g e := by rw [show f = g from e]

theorem js_readable : Readable JsPlain jsFrameBt jsShown where
  read f g r r' hf hg e := by
    obtain ⟨f1, f2⟩ := hf
    obtain ⟨g1, g2⟩ := hg
    have := joinFields_read e rfl (by simp [noSep_of_plain, noSep_natDec, *])
      (by simp [noSep_of_plain, noSep_natDec, *])
    simp only [List.cons.injEq, and_true] at this
    obtain ⟨⟨h1, h2, h3⟩, h4⟩ := this
    simp only [jsShown, orUnknown_inj f1 g1 h1, natDec_injective h2, orUnknown_inj f2 g2 h3, h4, and_self]
  start f hf := start_of_join _ _ _ (noSep_of_plain hf.1)
  only f g e := by
    simp only [jsShown, Prod.mk.injEq] at e
    simp only [jsFrameBt, e.1, e.2.1, e.2.2]

/-! ## Stack traces -/

/-- A line with a label and one attribute. -/
theorem label_inj {l a b r r' : Str} (ha : NoSep a) (hb : NoSep b) (h : l ++ (a ++ (c!"\n" ++ r)) = l ++ (b ++ (c!"\n" ++ r'))) :
    a = b ∧ r = r' := by
  rw [List.append_cancel_left_eq] at h
  have := split_unique (p := isSep) ha hb rfl rfl h
  exact ⟨this.1, this.2.2⟩

theorem lib_readable : Readable (fun l : Sharedlib => Plain l.soname) libBt (fun l => (l.lo, l.hi, l.soname)) where
  read f g r r' hf hg e := by
    have hx : ∀ k, ∀ c ∈ natHex k, (c == '-') = false := fun k c hc => by
      simpa using (isHex_noSep ((natHex_spec k).1 c hc)).2.1
    simp only [libBt, List.append_assoc, List.cons_append, List.nil_append] at e
    have h1 := split_unique (p := fun c => c == '-') (hx _) (hx _) rfl rfl e
    have h2 := split_unique (p := isSep) (noSep_natHex _) (noSep_natHex _) rfl rfl h1.2.2
    have h3 := List.cons.inj h2.2.2
    have h4 := split_unique (p := isSep) (noSep_of_plain hf) (noSep_of_plain hg) rfl rfl h3.2
    simp only [natHex_injective h1.1, natHex_injective h2.1, orUnknown_inj hf hg h4.1, h4.2.2, and_self]
  start f _ := by
    obtain ⟨h1, h2, _⟩ := natHex_spec f.lo
    cases h : natHex f.lo with
    | nil => exact absurd h h2
    | cons c r =>
      refine ⟨c, r ++ (c!"-" ++ natHex f.hi ++ c!", " ++ orUnknown f.soname ++ c!"\n"), by simp [libBt, h], ?_⟩
      intro e
      have := (isHex_noSep (h1 c (by simp [h]))).1
      rw [e] at this; exact absurd this (by decide)
  only f g e := by
    simp only [Prod.mk.injEq] at e
    simp only [libBt, e.1, e.2.1, e.2.2]

theorem gdb_head : HeadReadable (fun _ => True) (fun t : GdbThread => c!"Thread " ++ natDec t.number ++ c!"\n") GdbThread.number := by
  intro t u r r' _ _ e
  have := label_inj (noSep_natDec _) (noSep_natDec _) (by simpa only [List.append_assoc] using e)
  exact ⟨natDec_injective this.1, this.2⟩

theorem java_head : HeadReadable (fun t : JavaThread => Plain t.name) (fun t : JavaThread => c!"Thread " ++ orUnknown t.name ++ c!"\n")
    JavaThread.name := by
  intro t u r r' ht hu e
  have := label_inj (noSep_of_plain ht) (noSep_of_plain hu) (by simpa only [List.append_assoc] using e)
  exact ⟨orUnknown_inj ht hu this.1, this.2⟩

theorem no_head {T : Type} : HeadReadable (fun _ : T => True) (fun _ => []) (fun _ => ()) := by
  intro t u r r' _ _ e; exact ⟨rfl, by simpa using e⟩

/-- All attributes of the GDB stack trace are plain. -/
def GdbTracePlain (s : GdbTrace) : Prop :=
  (∀ l ∈ s.libs, Plain l.soname) ∧ ∀ t ∈ s.threads, ∀ f ∈ t.frames, GdbPlain f

/-- C20 for GDB stack traces. -/
theorem C20_gdb_partial (s u : GdbTrace) (hs : GdbTracePlain s) (hu : GdbTracePlain u) : gdbBt s = gdbBt u ↔
    (s.libs.map fun l => (l.lo, l.hi, l.soname)) = (u.libs.map fun l => (l.lo, l.hi, l.soname)) ∧
    (s.threads.map fun t => (t.number, t.frames.map gdbShown)) = (u.threads.map fun t => (t.number, t.frames.map gdbShown)) := by
  unfold gdbBt
  constructor
  · intro e
    rw [List.append_assoc, List.append_assoc] at e
    obtain ⟨h1, h2⟩ := lines_inj lib_readable _ _ _ _ hs.1 hu.1 (.inr ⟨_, rfl⟩) (.inr ⟨_, rfl⟩) e
    refine ⟨h1, ?_⟩
    have h2 : threadsBt (fun t : GdbThread => c!"Thread " ++ natDec t.number ++ c!"\n") GdbThread.frames gdbFrameBt s.threads =
      threadsBt (fun t : GdbThread => c!"Thread " ++ natDec t.number ++ c!"\n") GdbThread.frames gdbFrameBt u.threads := by
      simpa using h2
    have hne : ∀ (t : GdbThread) ts, threadsBt (fun t : GdbThread => c!"Thread " ++ natDec t.number ++ c!"\n") GdbThread.frames
        gdbFrameBt (t :: ts) ≠ [] := by
      intro t ts; cases ts <;> simp [threadsBt]
    cases hst : s.threads with
    | nil =>
      cases hut : u.threads with
      | nil => rfl
      | cons b us => rw [hst, hut] at h2; exact absurd h2.symm (hne b us)
    | cons a ts =>
      cases hut : u.threads with
      | nil => rw [hst, hut] at h2; exact absurd h2 (hne a ts)
      | cons b us =>
        rw [← hst, ← hut]
        exact threadsBt_inj gdb_head gdb_readable _ _ (by simp [hst]) (by simp [hut])
          (fun t h => ⟨trivial, hs.2 t h⟩) (fun t h => ⟨trivial, hu.2 t h⟩) h2
  · rintro ⟨h1, h2⟩
    rw [lines_only lib_readable _ _ h1, threadsBt_only (hkey := GdbThread.number) (fun t u e => by simp only [e]) gdb_readable _ _ h2]

/-- All attributes of the core stack trace are plain. -/
def CoreTracePlain (s : CoreTrace) : Prop := Plain s.executable ∧ ∀ t ∈ s.threads, ∀ f ∈ t.frames, CorePlain f

/-- C20 for core stack traces with threads. -/
theorem C20_core_partial (s u : CoreTrace) (hs : CoreTracePlain s) (hu : CoreTracePlain u) (hst : s.threads ≠ [])
    (hut : u.threads ≠ []) : coreBt s = coreBt u ↔
    s.executable = u.executable ∧ s.signal = u.signal ∧
    (s.threads.map fun t => t.frames.map coreShown) = (u.threads.map fun t => t.frames.map coreShown) := by
  have hm : ∀ a b : List CoreThread, (a.map fun t => ((), t.frames.map coreShown)) = (b.map fun t => ((), t.frames.map coreShown)) ↔
      (a.map fun t => t.frames.map coreShown) = (b.map fun t => t.frames.map coreShown) := by
    intro a b
    constructor
    · intro h
      have := congrArg (List.map Prod.snd) h
      simpa [List.map_map, Function.comp_def] using this
    · intro h
      have := congrArg (List.map (fun x => ((), x))) h
      simpa [List.map_map, Function.comp_def] using this
  unfold coreBt
  constructor
  · intro e
    simp only [List.append_assoc] at e
    obtain ⟨h1, h2⟩ := label_inj (noSep_of_plain hs.1) (noSep_of_plain hu.1) e
    obtain ⟨h3, h4⟩ := label_inj (noSep_natDec _) (noSep_natDec _) h2
    refine ⟨orUnknown_inj hs.1 hu.1 h1, natDec_injective h3, ?_⟩
    rw [← hm]
    exact threadsBt_inj no_head core_readable _ _ hst hut (fun t h => ⟨trivial, hs.2 t h⟩) (fun t h => ⟨trivial, hu.2 t h⟩)
      (by simpa using h4)
  · rintro ⟨h1, h2, h3⟩
    rw [h1, h2, threadsBt_only (hkey := fun _ => ()) (fun t u e => rfl) core_readable _ _ ((hm _ _).2 h3)]

theorem modulesBt_eq : ∀ ms : List Str, modulesBt ms ++ c!"\n" = joinFields ms
  | [] => rfl
  | [_] => rfl
  | a :: b :: ms => by
    have := modulesBt_eq (b :: ms)
    simp only [modulesBt, joinFields, List.append_assoc] at this ⊢
    rw [this]

/-- All attributes of the kernel oops are plain and no module has an empty name. -/
def KoopsTracePlain (s : KoopsTrace) : Prop :=
  Plain s.version ∧ (∀ m ∈ s.modules.getD [], ',' ∉ m ∧ '\n' ∉ m ∧ m ≠ []) ∧ ∀ f ∈ s.frames, KoopsPlain f

theorem single_inj {T F K : Type} {P : F → Prop} {text : F → Str} {key : F → K} {frames : T → List F}
    (h : Readable P text key) {s u : T} (hs : ∀ f ∈ frames s, P f) (hu : ∀ f ∈ frames u, P f)
    (e : threadsBt (fun _ => []) frames text [s] = threadsBt (fun _ => []) frames text [u]) :
    (frames s).map key = (frames u).map key := by
  simp only [threadsBt, List.nil_append] at e
  exact (lines_inj h _ _ [] [] hs hu (.inl rfl) (.inl rfl) (by simpa using e)).1

theorem single_only {T F K : Type} {P : F → Prop} {text : F → Str} {key : F → K} {frames : T → List F}
    (h : Readable P text key) {s u : T} (e : (frames s).map key = (frames u).map key) :
    threadsBt (fun _ => []) frames text [s] = threadsBt (fun _ => []) frames text [u] := by
  simp only [threadsBt, lines_only h _ _ e]

/-- C20 for kernel oopses. The taint flags are missing from the text. -/
theorem C20_koops_partial (s u : KoopsTrace) (hs : KoopsTracePlain s) (hu : KoopsTracePlain u) : koopsBt s = koopsBt u ↔
    s.version = u.version ∧ s.modules.getD [] = u.modules.getD [] ∧ s.frames.map koopsShown = u.frames.map koopsShown := by
  have hform : ∀ s : KoopsTrace, koopsBt s = c!"Version: " ++ orUnknown s.version ++ c!"\n" ++
      (c!"Flags: \nModules: " ++ (joinFields (s.modules.getD []) ++
        (c!"\n" ++ threadsBt (fun _ => []) KoopsTrace.frames koopsFrameBt [s]))) := by
    intro s
    rw [← modulesBt_eq]
    unfold koopsBt
    cases s.modules <;> simp [modulesBt]
  have hsep : ∀ (s : KoopsTrace), KoopsTracePlain s → ∀ m ∈ s.modules.getD [], NoSep m ∧ m ≠ [] := by
    intro s h m hm
    obtain ⟨a, b, c⟩ := h.2.1 m hm
    refine ⟨fun x hx => ?_, c⟩
    simp only [isSep, Bool.or_eq_false_iff, beq_eq_false_iff_ne]
    exact ⟨fun e => a (e ▸ hx), fun e => b (e ▸ hx)⟩
  rw [hform, hform]
  constructor
  · intro e
    obtain ⟨h1, h2⟩ := label_inj (noSep_of_plain hs.1) (noSep_of_plain hu.1) (by simpa only [List.append_assoc] using e)
    rw [List.append_cancel_left_eq] at h2
    obtain ⟨h3, h4⟩ := joinFields_inj' _ _ _ _ (hsep s hs) (hsep u hu) h2
    exact ⟨orUnknown_inj hs.1 hu.1 h1, h3, single_inj koops_readable hs.2.2 hu.2.2 (by simpa using h4)⟩
  · rintro ⟨h1, h2, h3⟩
    rw [h1, h2, single_only koops_readable h3]

/-- C20 for Python stack traces; all attributes are shown. -/
theorem C20_python_partial (s u : PythonTrace) (hs : Plain s.exceptionName ∧ ∀ f ∈ s.frames, PythonPlain f)
    (hu : Plain u.exceptionName ∧ ∀ f ∈ u.frames, PythonPlain f) : pythonBt s = pythonBt u ↔ s = u := by
  constructor
  · intro e
    unfold pythonBt at e
    simp only [List.append_assoc] at e
    obtain ⟨h1, h2⟩ := label_inj (noSep_of_plain hs.1) (noSep_of_plain hu.1) e
    have h3 := single_inj python_readable hs.2 hu.2 (by simpa using h2)
    have h4 := orUnknown_inj hs.1 hu.1 h1
    cases s; cases u; simp at h3 h4; rw [h3, h4]
  · rintro rfl; rfl

/-- C20 for Ruby stack traces; all attributes are shown. -/
theorem C20_ruby_partial (s u : RubyTrace) (hs : Plain s.exceptionName ∧ ∀ f ∈ s.frames, RubyPlain f)
    (hu : Plain u.exceptionName ∧ ∀ f ∈ u.frames, RubyPlain f) : rubyBt s = rubyBt u ↔ s = u := by
  constructor
  · intro e
    unfold rubyBt at e
    simp only [List.append_assoc] at e
    obtain ⟨h1, h2⟩ := label_inj (noSep_of_plain hs.1) (noSep_of_plain hu.1) e
    have h3 := single_inj ruby_readable hs.2 hu.2 (by simpa using h2)
    have h4 := orUnknown_inj hs.1 hu.1 h1
    cases s; cases u; simp at h3 h4; rw [h3, h4]
  · rintro rfl; rfl

/-- C20 for JavaScript stack traces. Column and platform are missing from the text. -/
theorem C20_js_partial (s u : JsTrace) (hs : Plain s.exceptionName ∧ ∀ f ∈ s.frames, JsPlain f)
    (hu : Plain u.exceptionName ∧ ∀ f ∈ u.frames, JsPlain f) : jsBt s = jsBt u ↔
    s.exceptionName = u.exceptionName ∧ s.frames.map jsShown = u.frames.map jsShown := by
  unfold jsBt
  constructor
  · intro e
    simp only [List.append_assoc] at e
    obtain ⟨h1, h2⟩ := label_inj (noSep_of_plain hs.1) (noSep_of_plain hu.1) e
    exact ⟨orUnknown_inj hs.1 hu.1 h1, single_inj js_readable hs.2 hu.2 (by simpa using h2)⟩
  · rintro ⟨h1, h2⟩
    rw [h1, single_only js_readable h2]

/-- C20 for Java stack traces; all attributes are shown. -/
theorem C20_java_partial (s u : JavaTrace) (hs : ∀ t ∈ s.threads, Plain t.name ∧ ∀ f ∈ t.frames, JavaPlain f)
    (hu : ∀ t ∈ u.threads, Plain t.name ∧ ∀ f ∈ t.frames, JavaPlain f) : javaBt s = javaBt u ↔ s = u := by
  constructor
  · intro e
    unfold javaBt at e
    have hne : ∀ (t : JavaThread) ts, threadsBt (fun t : JavaThread => c!"Thread " ++ orUnknown t.name ++ c!"\n") JavaThread.frames
        javaFrameBt (t :: ts) ≠ [] := by
      intro t ts; cases ts <;> simp [threadsBt]
    have hid : ∀ a b : List JavaThread, (a.map fun t => (t.name, t.frames.map id)) = (b.map fun t => (t.name, t.frames.map id)) → a = b := by
      intro a b h
      have := congrArg (List.map fun p : Option Str × List JavaFrame => ({ name := p.1, frames := p.2 } : JavaThread)) h
      simpa [List.map_map, Function.comp_def] using this
    obtain ⟨ts⟩ := s
    obtain ⟨us⟩ := u
    simp only at e hs hu
    congr 1
    cases ts with
    | nil =>
      cases us with
      | nil => rfl
      | cons b us => exact absurd e.symm (hne b us)
    | cons a ts =>
      cases us with
      | nil => exact absurd e (hne a ts)
      | cons b us =>
        exact hid _ _ (threadsBt_inj java_head java_readable _ _ (by simp) (by simp) hs hu e)
  · rintro rfl; rfl

/-- C20 fails for attributes with separators: a line break in the quoted source line makes
one frame look like two. -/
theorem C20_not_separators : ∃ s u : PythonTrace, s ≠ u ∧ pythonBt s = pythonBt u :=
  ⟨{ frames := [{ fileName := some c!"a", functionName := some c!"f", lineContents := some c!"x\nb, 0, 2, g, 0, y" }] },
    { frames := [{ fileName := some c!"a", functionName := some c!"f", lineContents := some c!"x" },
      { fileName := some c!"b", fileLine := 2, functionName := some c!"g", lineContents := some c!"y" }] },
    by decide, by decide +kernel⟩

/-- C20 fails for a name that spells the text for a missing name. -/
theorem C20_not_unknown : ∃ s u : JsTrace, s.exceptionName ≠ u.exceptionName ∧ jsBt s = jsBt u :=
  ⟨{}, { exceptionName := some c!"<unknown>" }, by decide, by decide +kernel⟩

/-- C20: the taint flags never enter the text although it has a line for them. -/
theorem C20_not_koops_flags (s : KoopsTrace) (t : Taints) : koopsBt { s with taint := t } = koopsBt s := rfl

/-! ### Non-vacuity -/

example : GdbTracePlain
    { libs := [{ lo := 1, hi := 2, soname := some c!"libc.so" }],
      threads := [{ number := 1, frames := [{ functionName := some c!"main", sourceLine := 4 }] }] } := by
  refine ⟨?_, ?_⟩
  · intro l hl s e; simp at hl; subst hl; simp at e; subst e; decide
  · intro t ht f hf; simp at ht; subst ht; simp at hf; subst hf
    refine ⟨?_, ?_, ?_, ?_⟩ <;> intro s e <;> simp at e
    subst e; decide
example : gdbBt { libs := [{ lo := 16, hi := 32 }], threads := [{ number := 1, frames := [{ functionName := some c!"f" }] },
      { number := 2 }] } =
    c!"10-20, <unknown>\n\nThread 1\nf, <unknown>, 0, <unknown>, 0, 0, 0x0, <unknown>\n\nThread 2\n" := by decide +kernel

end Satyr.Hash
