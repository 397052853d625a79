import Verif.Hash.Bt
import Verif.Hash.Dup
/-!
# The duplication hash tells different crashes apart (C122)
-/
namespace Satyr.Hash
open Satyr Satyr.CStr Satyr.Frames Satyr.Normalize Satyr.Threads Satyr.Koops

/-! ## Specification -/

/-- How many frames count: all of them (up to the largest `int`) for 0, none for a negative number. -/
def counted (n : Int) : Nat := if n = 0 then 2 ^ 31 - 1 else n.toNat

/-- What identifies a core frame. -/
inductive CoreKey where
  | module (id : Str) (offset : Nat)
  | function (name : Str)
  | address (a : Nat)
  deriving DecidableEq

/-- The build id with the offset, or else the name of the function, or else the fingerprint with the offset, or else the
address. -/
def coreKey (f : CoreFrame) : CoreKey :=
  match f.buildId, f.functionName, f.fingerprint with
  | some b, _, _ => .module b f.buildIdOffset
  | none, some n, _ => .function n
  | none, none, some p => .module p f.buildIdOffset
  | none, none, none => .address f.address

/-- Build ids and fingerprints have no blanks, plus signs and newlines, and names no newlines. -/
def CoreNice (f : CoreFrame) : Prop :=
  (∀ b, f.buildId = some b → ' ' ∉ b ∧ '+' ∉ b ∧ '\n' ∉ b) ∧ (∀ b, f.fingerprint = some b → ' ' ∉ b ∧ '+' ∉ b ∧ '\n' ∉ b) ∧
  ∀ n, f.functionName = some n → '\n' ∉ n

/-- The function has a name, without blanks; it is not the end of the text for signal handlers. Name and type have no newlines. -/
def GdbNice (f : GdbFrame) : Prop :=
  (∃ n, f.functionName = some n ∧ ' ' ∉ n ∧ '\n' ∉ n ∧ n ≠ c!"called>") ∧ ∀ t, f.functionType = some t → '\n' ∉ t

/-- A name of a file without newlines which is not the text for a missing name. -/
def FileNice (s : Option Str) : Prop := ∀ n, s = some n → '\n' ∉ n ∧ n ≠ c!"<unknown>"

/-- What identifies a Java frame. -/
inductive JavaKey where
  | name (n : Str)
  | place (classPath fileName : Option Str) (line : Nat)
  deriving DecidableEq

def javaKey (f : JavaFrame) : JavaKey :=
  match f.name with
  | some n => .name n
  | none => .place f.classPath f.fileName f.fileLine

/-- Names of methods have no slashes and newlines, and names of files have no slashes. -/
def JavaNice (f : JavaFrame) : Prop :=
  (∀ n, f.name = some n → '/' ∉ n ∧ '\n' ∉ n) ∧ FileNice f.classPath ∧ FileNice f.fileName ∧ ∀ n, f.fileName = some n → '/' ∉ n

/-- What identifies a frame of a kernel oops: the name of the function, or else its address. -/
def koopsKey (f : KoopsFrame) : Str ⊕ Nat :=
  match f.functionName with
  | some n => .inl n
  | none => .inr f.address

/-- Names of functions do not begin with a zero and have no newlines. -/
def KoopsNice (f : KoopsFrame) : Prop := ∀ n, f.functionName = some n → n.head? ≠ some '0' ∧ '\n' ∉ n

/-! ## Lines -/

/-- A line with its newline. -/
def IsLine (s : Str) : Prop := ∃ a, '\n' ∉ a ∧ s = a ++ ['\n']

theorem IsLine.ne_nil {s : Str} (h : IsLine s) : s ≠ [] := by
  obtain ⟨a, -, rfl⟩ := h
  simp

theorem line_inj {a b r r' : Str} {c : Char} (ha : c ∉ a) (hb : c ∉ b) (h : a ++ c :: r = b ++ c :: r') : a = b ∧ r = r' := by
  obtain ⟨h1, -, h2⟩ := split_unique (p := fun x => x == c) (fun x hx => by
    simp only [beq_eq_false_iff_ne]; rintro rfl; exact ha hx) (fun x hx => by
    simp only [beq_eq_false_iff_ne]; rintro rfl; exact hb hx) (by simp) (by simp) h
  exact ⟨h1, h2⟩

/-- The same at the last separator. -/
theorem last_inj {a b r r' : Str} {c : Char} (hr : c ∉ r) (hr' : c ∉ r') (h : a ++ c :: r = b ++ c :: r') : a = b ∧ r = r' := by
  have h' := congrArg List.reverse h
  simp only [List.reverse_append, List.reverse_cons, List.append_assoc, List.singleton_append] at h'
  obtain ⟨h1, h2⟩ := line_inj (by simpa using hr) (by simpa using hr') h'
  exact ⟨List.reverse_injective h2, List.reverse_injective h1⟩

theorem lines_flatten_inj : ∀ {xs ys : List Str}, (∀ x ∈ xs, IsLine x) → (∀ y ∈ ys, IsLine y) → xs.flatten = ys.flatten → xs = ys
  | [], [], _, _, _ => rfl
  | [], y :: ys, _, hy, h => by
    obtain ⟨b, -, rfl⟩ := hy y (by simp)
    simp at h
  | x :: xs, [], hx, _, h => by
    obtain ⟨a, -, rfl⟩ := hx x (by simp)
    simp at h
  | x :: xs, y :: ys, hx, hy, h => by
    obtain ⟨a, ha, ea⟩ := hx x (by simp)
    obtain ⟨b, hb, eb⟩ := hy y (by simp)
    rw [ea, eb] at h ⊢
    simp only [List.flatten_cons, List.append_assoc, List.singleton_append] at h
    obtain ⟨h1, h2⟩ := line_inj ha hb h
    rw [h1, lines_flatten_inj (fun x h => hx x (by simp [h])) (fun y h => hy y (by simp [h])) h2]

/-- The part common to all kinds of threads. -/
theorem distinct_of {F K : Type} {P : F → Prop} {text : F → Str} {key : F → K} (hl : ∀ f, P f → IsLine (text f))
    (hk : ∀ f g, P f → P g → (text f = text g ↔ key f = key g)) {t u : List F} (ht : ∀ f ∈ t, P f) (hu : ∀ f ∈ u, P f) (k : Nat) :
    ((((t.map text).filter fun s => !s.isEmpty).take k).flatten = (((u.map text).filter fun s => !s.isEmpty).take k).flatten) ↔
      (t.take k).map key = (u.take k).map key := by
  have e : ∀ t : List F, (∀ f ∈ t, P f) → ((t.map text).filter fun s => !s.isEmpty).take k = (t.take k).map text := by
    intro t ht
    rw [List.filter_eq_self.2, List.map_take]
    intro s hs
    obtain ⟨f, hf, rfl⟩ := List.mem_map.1 hs
    have := (hl f (ht f hf)).ne_nil
    simpa using this
  rw [e t ht, e u hu]
  have ht' : ∀ f ∈ t.take k, P f := fun f h => ht f (List.mem_of_mem_take h)
  have hu' : ∀ f ∈ u.take k, P f := fun f h => hu f (List.mem_of_mem_take h)
  have hkey : ∀ (t u : List F), (∀ f ∈ t, P f) → (∀ f ∈ u, P f) → (t.map text = u.map text ↔ t.map key = u.map key) := by
    intro t
    induction t with
    | nil => intro u _ _; cases u <;> simp
    | cons a t ih =>
      intro u hta hub
      cases u with
      | nil => simp
      | cons b u =>
        rw [List.map_cons, List.map_cons, List.map_cons, List.map_cons, List.cons.injEq, List.cons.injEq,
          hk a b (hta a (by simp)) (hub b (by simp)), ih u (fun f h => hta f (by simp [h])) (fun f h => hub f (by simp [h]))]
  rw [← hkey _ _ ht' hu']
  constructor
  · intro h
    refine lines_flatten_inj ?_ ?_ h
    · intro x hx; obtain ⟨f, hf, rfl⟩ := List.mem_map.1 hx; exact hl f (ht' f hf)
    · intro x hx; obtain ⟨f, hf, rfl⟩ := List.mem_map.1 hx; exact hl f (hu' f hf)
  · intro h; rw [h]

theorem text_inj (pre : Option Str) (fl : DupFlags) (h : fl.noNormalize = true) (hh : fl.nohash = true) (hc : fl.koopsCompat = false)
    (sha1 : Str → Str) (t u : Thread) (n : Int) : duphash sha1 t n pre fl = duphash sha1 u n pre fl ↔
    (leading fl n t).flatten = (leading fl n u).flatten := by
  rw [C19_plain sha1 t n pre fl h, C19_plain sha1 u n pre fl h]
  simp [finish, hc, hh, dupText]

/-! ## The kinds of frames -/

theorem noNewline_natDec (n : Nat) : '\n' ∉ natDec n := fun h => by
  have := noSep_natDec n _ h; revert this; decide
theorem noNewline_hex0x (n : Nat) : '\n' ∉ hex0x n := fun h => by
  have := noSep_hex0x n _ h; revert this; decide
theorem noColon_natDec (n : Nat) : ':' ∉ natDec n := fun h => by
  have := (natDec_spec n).1 _ h; revert this; decide
theorem noNewline_file {s : Option Str} (h : FileNice s) : '\n' ∉ orUnknown s := by
  cases s with
  | none => decide
  | some s => exact (h s rfl).1
theorem file_inj {s t : Option Str} (hs : FileNice s) (ht : FileNice t) (h : orUnknown s = orUnknown t) : s = t := by
  cases s <;> cases t
  · rfl
  · exact absurd h.symm (ht _ rfl).2
  · exact absurd h (hs _ rfl).2
  · exact congrArg some h

theorem fileLine_line {s : Option Str} (hs : FileNice s) (n : Nat) : IsLine (orUnknown s ++ c!":" ++ natDec n ++ c!"\n") :=
  ⟨orUnknown s ++ c!":" ++ natDec n, by simp [noNewline_file hs, noNewline_natDec], by simp⟩

theorem fileLine_inj {s t : Option Str} (hs : FileNice s) (ht : FileNice t) (n m : Nat) :
    orUnknown s ++ c!":" ++ natDec n ++ c!"\n" = orUnknown t ++ c!":" ++ natDec m ++ c!"\n" ↔ (s, n) = (t, m) := by
  constructor
  · intro h
    have h1 := List.append_cancel_right h
    simp only [List.append_assoc, List.singleton_append] at h1
    obtain ⟨h2, h3⟩ := last_inj (noColon_natDec n) (noColon_natDec m) h1
    rw [file_inj hs ht h2, natDec_injective h3]
  · intro h; cases h; rfl

/-- **C122.** Two Python threads have the same hashed text exactly if the frames that count have the same files and lines. -/
theorem C122_python_partial (t u : List (Node PythonFrame)) (ht : ∀ f ∈ t, FileNice f.val.fileName)
    (hu : ∀ f ∈ u, FileNice f.val.fileName) (sha1 : Str → Str) (n : Int) (pre : Option Str) (fl : DupFlags)
    (h : fl.noNormalize = true) (hh : fl.nohash = true) (hc : fl.koopsCompat = false) :
    duphash sha1 (.python t) n pre fl = duphash sha1 (.python u) n pre fl ↔
      ((t.take (counted n)).map fun f => (f.val.fileName, f.val.fileLine)) =
        (u.take (counted n)).map fun f => (f.val.fileName, f.val.fileLine) := by
  rw [text_inj pre fl h hh hc]
  exact distinct_of (P := fun f : Node PythonFrame => FileNice f.val.fileName) (text := fun f => pythonDup f.val)
    (fun f h => fileLine_line h _) (fun f g hf hg => fileLine_inj hf hg _ _) ht hu _

/-- **C122.** The same for Ruby. -/
theorem C122_ruby_partial (t u : List (Node RubyFrame)) (ht : ∀ f ∈ t, FileNice f.val.fileName)
    (hu : ∀ f ∈ u, FileNice f.val.fileName) (sha1 : Str → Str) (n : Int) (pre : Option Str) (fl : DupFlags)
    (h : fl.noNormalize = true) (hh : fl.nohash = true) (hc : fl.koopsCompat = false) :
    duphash sha1 (.ruby t) n pre fl = duphash sha1 (.ruby u) n pre fl ↔
      ((t.take (counted n)).map fun f => (f.val.fileName, f.val.fileLine)) =
        (u.take (counted n)).map fun f => (f.val.fileName, f.val.fileLine) := by
  rw [text_inj pre fl h hh hc]
  exact distinct_of (P := fun f : Node RubyFrame => FileNice f.val.fileName) (text := fun f => rubyDup f.val)
    (fun f h => fileLine_line h _) (fun f g hf hg => fileLine_inj hf hg _ _) ht hu _

/-- **C122.** The same for JavaScript. -/
theorem C122_js_partial (t u : List (Node JsFrame)) (ht : ∀ f ∈ t, FileNice f.val.fileName)
    (hu : ∀ f ∈ u, FileNice f.val.fileName) (sha1 : Str → Str) (n : Int) (pre : Option Str) (fl : DupFlags)
    (h : fl.noNormalize = true) (hh : fl.nohash = true) (hc : fl.koopsCompat = false) :
    duphash sha1 (.js t) n pre fl = duphash sha1 (.js u) n pre fl ↔
      ((t.take (counted n)).map fun f => (f.val.fileName, f.val.fileLine)) =
        (u.take (counted n)).map fun f => (f.val.fileName, f.val.fileLine) := by
  rw [text_inj pre fl h hh hc]
  exact distinct_of (P := fun f : Node JsFrame => FileNice f.val.fileName) (text := fun f => jsDup f.val)
    (fun f h => fileLine_line h _) (fun f g hf hg => fileLine_inj hf hg _ _) ht hu _

theorem noSlash_natDec (n : Nat) : '/' ∉ natDec n := fun h => by
  have := (natDec_spec n).1 _ h; revert this; decide

theorem java_line {f : JavaFrame} (h : JavaNice f) : IsLine (javaDup f) := by
  obtain ⟨h1, h2, h3, -⟩ := h
  unfold javaDup
  cases hn : f.name with
  | some n => exact ⟨n, (h1 n hn).2, rfl⟩
  | none =>
    exact ⟨orUnknown f.classPath ++ c!"/" ++ orUnknown f.fileName ++ c!":" ++ natDec f.fileLine,
      by simp [noNewline_file h2, noNewline_file h3, noNewline_natDec], rfl⟩

theorem java_slash {f : JavaFrame} (h : JavaNice f) : '/' ∉ orUnknown f.fileName ++ ':' :: natDec f.fileLine := by
  have : '/' ∉ orUnknown f.fileName := by
    cases hn : f.fileName with
    | none => decide
    | some n => exact h.2.2.2 n hn
  simp [this, noSlash_natDec]

theorem java_key {f g : JavaFrame} (hf : JavaNice f) (hg : JavaNice g) : javaDup f = javaDup g ↔ javaKey f = javaKey g := by
  unfold javaDup javaKey
  cases hn : f.name with
  | some n =>
    cases hm : g.name with
    | some m => simp
    | none =>
      dsimp only
      refine ⟨fun e => ?_, (fun e => by cases e)⟩
      have e := List.append_cancel_right e
      exact absurd (by rw [e]; simp) (hf.1 n hn).1
  | none =>
    cases hm : g.name with
    | some m =>
      dsimp only
      refine ⟨fun e => ?_, (fun e => by cases e)⟩
      have e := List.append_cancel_right e
      exact absurd (by rw [← e]; simp) (hg.1 m hm).1
    | none =>
      dsimp only
      constructor
      · intro e
        have e := List.append_cancel_right e
        simp only [List.append_assoc, List.singleton_append] at e
        obtain ⟨e1, e2⟩ := last_inj (java_slash hf) (java_slash hg) e
        obtain ⟨e3, e4⟩ := last_inj (noColon_natDec _) (noColon_natDec _) e2
        rw [file_inj hf.2.1 hg.2.1 e1, file_inj hf.2.2.1 hg.2.2.1 e3, natDec_injective e4]
      · intro e
        injection e with e1 e2 e3
        rw [e1, e2, e3]

/-- **C122.** Two Java threads have the same hashed text exactly if the frames that count have the same names, or else the same
class paths, files and lines. -/
theorem C122_java_partial (t u : List (Node JavaFrame)) (ht : ∀ f ∈ t, JavaNice f.val) (hu : ∀ f ∈ u, JavaNice f.val)
    (sha1 : Str → Str) (n : Int) (pre : Option Str) (fl : DupFlags)
    (h : fl.noNormalize = true) (hh : fl.nohash = true) (hc : fl.koopsCompat = false) :
    duphash sha1 (.java t) n pre fl = duphash sha1 (.java u) n pre fl ↔
      ((t.take (counted n)).map fun f => javaKey f.val) = (u.take (counted n)).map fun f => javaKey f.val := by
  rw [text_inj pre fl h hh hc]
  exact distinct_of (P := fun f : Node JavaFrame => JavaNice f.val) (text := fun f => javaDup f.val)
    (fun f h => java_line h) (fun f g hf hg => java_key hf hg) ht hu _

theorem gdb_line {f : GdbFrame} (h : GdbNice f) : IsLine (gdbDup f) := by
  obtain ⟨⟨n, hn, -, h2, -⟩, h3⟩ := h
  refine ⟨_, ?_, rfl⟩
  rw [hn]
  cases ht : f.functionType with
  | none => cases f.signalHandlerCalled <;> simp [h2]
  | some t => cases f.signalHandlerCalled <;> simp [h2, h3 t ht]

/-- The text before the last blank, and the name. -/
theorem gdb_key {f g : GdbFrame} (hf : GdbNice f) (hg : GdbNice g) : gdbDup f = gdbDup g ↔
    (f.functionType, f.functionName, f.signalHandlerCalled) = (g.functionType, g.functionName, g.signalHandlerCalled) := by
  constructor
  · intro e
    obtain ⟨⟨n, hn, h1, -, h2⟩, -⟩ := hf
    obtain ⟨⟨m, hm, h3, -, h4⟩, -⟩ := hg
    unfold gdbDup at e
    have e := List.append_cancel_right e
    rw [hn, hm] at e ⊢
    dsimp only at e
    have key : ∀ {a b : Str}, a ++ ' ' :: n = b ++ ' ' :: m → a = b ∧ n = m := fun h => last_inj h1 h3 h
    have ty : ∀ {a b : Option Str}, c!" " ++ (match a with | some t => c!" " ++ t | none => []) =
        c!" " ++ (match b with | some t => c!" " ++ t | none => []) → a = b := by
      intro a b h
      cases a <;> cases b <;> simp at h ⊢
      exact h
    have split : ∀ x : Str, x ++ c!" <signal handler called>" = (x ++ c!" <signal handler") ++ ' ' :: c!"called>" := by
      intro x; simp
    cases hs : f.signalHandlerCalled <;> cases hs' : g.signalHandlerCalled <;> rw [hs, hs'] at e <;>
      simp only [if_true, Bool.false_eq_true, if_false, List.append_nil, List.singleton_append] at e
    · obtain ⟨e1, e2⟩ := key e
      rw [ty e1, e2]
    · rw [split] at e
      exact absurd (last_inj h1 (by decide) e).2 h2
    · rw [split] at e
      exact absurd (last_inj (by decide) h3 e).2.symm h4
    · have e := List.append_cancel_right e
      obtain ⟨e1, e2⟩ := key e
      rw [ty e1, e2]
  · intro e
    simp only [Prod.mk.injEq] at e
    simp only [gdbDup, e.1, e.2.1, e.2.2]

/-- **C122.** Two gdb threads have the same hashed text exactly if the frames that count have the same functions with the same
types, and are the same in calling signal handlers. -/
theorem C122_gdb_partial (t u : List (Node GdbFrame)) (ht : ∀ f ∈ t, GdbNice f.val) (hu : ∀ f ∈ u, GdbNice f.val)
    (sha1 : Str → Str) (n : Int) (pre : Option Str) (fl : DupFlags)
    (h : fl.noNormalize = true) (hh : fl.nohash = true) (hc : fl.koopsCompat = false) :
    duphash sha1 (.gdb t) n pre fl = duphash sha1 (.gdb u) n pre fl ↔
      ((t.take (counted n)).map fun f => (f.val.functionType, f.val.functionName, f.val.signalHandlerCalled)) =
        (u.take (counted n)).map fun f => (f.val.functionType, f.val.functionName, f.val.signalHandlerCalled) := by
  rw [text_inj pre fl h hh hc]
  exact distinct_of (P := fun f : Node GdbFrame => GdbNice f.val) (text := fun f => gdbDup f.val)
    (fun f h => gdb_line h) (fun f g hf hg => gdb_key hf hg) ht hu _

/-- The text of a frame for what identifies it. -/
def coreKeyText : CoreKey → Str
  | .module b o => b ++ '+' :: (hex0x o ++ c!"\n")
  | .function n => ' ' :: ' ' :: (n ++ c!"\n")
  | .address a => hex0x a ++ c!"\n"

theorem coreDup_key (f : CoreFrame) : coreDup f = coreKeyText (coreKey f) := by
  unfold coreDup coreKey
  cases f.buildId <;> cases f.functionName <;> cases f.fingerprint <;> simp [coreKeyText]

def CoreKey.Nice : CoreKey → Prop
  | .module b _ => ' ' ∉ b ∧ '+' ∉ b ∧ '\n' ∉ b
  | .function n => '\n' ∉ n
  | .address _ => True

theorem coreKey_nice {f : CoreFrame} (h : CoreNice f) : (coreKey f).Nice := by
  obtain ⟨h1, h2, h3⟩ := h
  unfold coreKey
  cases hb : f.buildId with
  | some b => exact h1 b hb
  | none =>
    cases hn : f.functionName with
    | some n => exact h3 n hn
    | none =>
      cases hp : f.fingerprint with
      | some p => exact h2 p hp
      | none => trivial

theorem coreKey_line {k : CoreKey} (h : k.Nice) : IsLine (coreKeyText k) := by
  cases k with
  | module b o => exact ⟨b ++ '+' :: hex0x o, by simp [h.2.2, noNewline_hex0x], by simp [coreKeyText]⟩
  | function n => exact ⟨' ' :: ' ' :: n, by simpa using (show '\n' ∉ n from h), by simp [coreKeyText]⟩
  | address a => exact ⟨hex0x a, noNewline_hex0x a, rfl⟩

theorem noPlus_hex0x (n : Nat) : '+' ∉ hex0x n := by
  intro h
  simp only [hex0x, List.cons_append, List.nil_append, List.mem_cons] at h
  rcases h with h | h | h
  · revert h; decide
  · revert h; decide
  · have := (natHex_spec n).1 _ h; revert this; decide

theorem coreKey_inj {k l : CoreKey} (hk : k.Nice) (hl : l.Nice) (e : coreKeyText k = coreKeyText l) : k = l := by
  cases k with
  | module b o =>
    cases l with
    | module c p =>
      obtain ⟨e1, e2⟩ := line_inj hk.2.1 hl.2.1 e
      rw [e1, hex0x_inj (List.append_cancel_right e2)]
    | function n =>
      exfalso
      cases b with
      | nil => simp [coreKeyText] at e
      | cons x b => simp [coreKeyText] at e; rw [e.1] at hk; exact hk.1 (by simp)
    | address a =>
      exfalso
      have : '+' ∈ hex0x a := by
        have : '+' ∈ hex0x a ++ c!"\n" := by
          have e' : b ++ '+' :: (hex0x o ++ c!"\n") = hex0x a ++ c!"\n" := e
          rw [← e']; simp
        simpa using this
      exact noPlus_hex0x a this
  | function n =>
    cases l with
    | module c p =>
      exfalso
      cases c with
      | nil => simp [coreKeyText] at e
      | cons x b => simp [coreKeyText] at e; rw [← e.1] at hl; exact hl.1 (by simp)
    | function m =>
      simp [coreKeyText] at e
      rw [e]
    | address a => simp [coreKeyText, hex0x] at e
  | address a =>
    cases l with
    | module c p =>
      exfalso
      have : '+' ∈ hex0x a := by
        have : '+' ∈ hex0x a ++ c!"\n" := by
          have e' : hex0x a ++ c!"\n" = c ++ '+' :: (hex0x p ++ c!"\n") := e
          rw [e']; simp
        simpa using this
      exact noPlus_hex0x a this
    | function m => simp [coreKeyText, hex0x] at e
    | address b => rw [hex0x_inj (List.append_cancel_right e)]

/-- **C122.** Two core threads have the same hashed text exactly if the frames that count are identified by the same build ids (or
fingerprints) and offsets, or names, or addresses. -/
theorem C122_core_partial (t u : List (Node CoreFrame)) (ht : ∀ f ∈ t, CoreNice f.val) (hu : ∀ f ∈ u, CoreNice f.val)
    (sha1 : Str → Str) (n : Int) (pre : Option Str) (fl : DupFlags)
    (h : fl.noNormalize = true) (hh : fl.nohash = true) (hc : fl.koopsCompat = false) :
    duphash sha1 (.core t) n pre fl = duphash sha1 (.core u) n pre fl ↔
      ((t.take (counted n)).map fun f => coreKey f.val) = (u.take (counted n)).map fun f => coreKey f.val := by
  rw [text_inj pre fl h hh hc]
  refine distinct_of (P := fun f : Node CoreFrame => CoreNice f.val) (text := fun f => coreDup f.val)
    (fun f h => ?_) (fun f g hf hg => ?_) ht hu _
  · rw [coreDup_key]; exact coreKey_line (coreKey_nice h)
  · rw [coreDup_key, coreDup_key]
    exact ⟨coreKey_inj (coreKey_nice hf) (coreKey_nice hg), fun e => by rw [e]⟩

theorem koops_line {fl : DupFlags} (hc : fl.koopsCompat = false) {f : KoopsFrame} (h : KoopsNice f) : IsLine (koopsDup fl f) := by
  unfold koopsDup
  rw [hc]
  cases hn : f.functionName with
  | some n => exact ⟨n, (h n hn).2, rfl⟩
  | none => exact ⟨hex0x f.address, noNewline_hex0x _, rfl⟩

theorem koops_key {fl : DupFlags} (hc : fl.koopsCompat = false) {f g : KoopsFrame} (hf : KoopsNice f) (hg : KoopsNice g) :
    koopsDup fl f = koopsDup fl g ↔ koopsKey f = koopsKey g := by
  unfold koopsDup koopsKey
  rw [hc]
  simp only [Bool.false_and, Bool.false_eq_true, if_false]
  cases hn : f.functionName with
  | some n =>
    cases hm : g.functionName with
    | some m => simp
    | none =>
      refine ⟨fun e => ?_, (fun e => by cases e)⟩
      exact absurd (by rw [List.append_cancel_right e]; rfl) (hf n hn).1
  | none =>
    cases hm : g.functionName with
    | some m =>
      refine ⟨fun e => ?_, (fun e => by cases e)⟩
      exact absurd (by rw [← List.append_cancel_right e]; rfl) (hg m hm).1
    | none =>
      refine ⟨fun e => ?_, fun e => ?_⟩
      · rw [hex0x_inj (List.append_cancel_right e)]
      · rw [Sum.inr.inj e]

/-- **C122.** Two kernel oopses have the same hashed text exactly if the frames that count have the same names, or else the same
addresses. -/
theorem C122_koops_partial (t u : List (Node KoopsFrame)) (ht : ∀ f ∈ t, KoopsNice f.val) (hu : ∀ f ∈ u, KoopsNice f.val)
    (sha1 : Str → Str) (n : Int) (pre : Option Str) (fl : DupFlags)
    (h : fl.noNormalize = true) (hh : fl.nohash = true) (hc : fl.koopsCompat = false) :
    duphash sha1 (.koops t) n pre fl = duphash sha1 (.koops u) n pre fl ↔
      ((t.take (counted n)).map fun f => koopsKey f.val) = (u.take (counted n)).map fun f => koopsKey f.val := by
  rw [text_inj pre fl h hh hc]
  exact distinct_of (P := fun f : Node KoopsFrame => KoopsNice f.val) (text := fun f => koopsDup fl f.val)
    (fun f h => koops_line hc h) (fun f g hf hg => koops_key hc hf hg) ht hu _

/-! ## Examples and what does not hold -/

example : JavaNice { classPath := some c!"a.jar", fileName := some c!"A.java", fileLine := 4 } :=
  ⟨(fun n h => by cases h), (fun n h => by cases h; decide), (fun n h => by cases h; decide), (fun n h => by cases h; decide)⟩
example : GdbNice { functionName := some c!"main", functionType := some c!"unsigned int" } :=
  ⟨⟨_, rfl, by decide, by decide, by decide⟩, (fun n h => by cases h; decide)⟩
example : CoreNice { buildId := some c!"01ab", functionName := some c!"operator new" } :=
  ⟨(fun n h => by cases h; decide), (fun n h => by cases h), (fun n h => by cases h; decide)⟩
example : KoopsNice { functionName := some c!"do_exit" } := fun n h => by cases h; decide

/-- What is missing in C122: the type of one function and the name of another are not told apart. -/
theorem C122_not_gdb : ∃ f g : GdbFrame, f.functionName ≠ g.functionName ∧ ∀ (sha1 : Str → Str) (n : Int) (pre : Option Str) (fl : DupFlags),
    duphash sha1 (.gdb [⟨1, f⟩]) n pre { fl with noNormalize := true } = duphash sha1 (.gdb [⟨1, g⟩]) n pre { fl with noNormalize := true } := by
  refine ⟨{ functionName := some c!"a b" }, { functionType := some c!"a", functionName := some c!"b" }, by decide, fun sha1 n pre fl => ?_⟩
  rw [C19_plain _ _ _ _ _ rfl, C19_plain _ _ _ _ _ rfl]
  rfl

/-- What is missing in C122: a function named like an address. -/
theorem C122_not_koops : ∃ f g : KoopsFrame, f.functionName ≠ g.functionName ∧ ∀ (sha1 : Str → Str) (n : Int) (pre : Option Str),
    duphash sha1 (.koops [⟨1, f⟩]) n pre { noNormalize := true } = duphash sha1 (.koops [⟨1, g⟩]) n pre { noNormalize := true } := by
  refine ⟨{ functionName := some c!"0x10" }, { address := 16 }, by decide, fun sha1 n pre => ?_⟩
  rw [C19_plain _ _ _ _ _ rfl, C19_plain _ _ _ _ _ rfl]
  have : contributions { noNormalize := true } (.koops [⟨1, { functionName := some c!"0x10" }⟩]) =
      contributions { noNormalize := true } (.koops [⟨1, { address := 16 }⟩]) := by decide +kernel
  simp only [leading, this]

end Satyr.Hash
