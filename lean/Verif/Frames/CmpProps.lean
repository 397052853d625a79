import Verif.Frames.Cmp
import Mathlib.Tactic.Tauto
/-!
# Frame comparisons as orders and equivalences (C23, C24)
-/
namespace Satyr.Frames
open Satyr.CStr Satyr.Normalize

/-! ## Specification -/

/-- On the values satisfying `P`, the comparison is a total order that regards as equal exactly the values with equal
`key`. -/
structure OrderOn {A K : Type} (P : A → Prop) (c : A → A → Int) (key : A → K) : Prop where
  antisymm : ∀ a b, P a → P b → Int.sign (c b a) = - Int.sign (c a b)
  trans : ∀ a b d, P a → P b → P d → c a b ≤ 0 → c b d ≤ 0 → c a d ≤ 0
  zero_iff : ∀ a b, P a → P b → (c a b = 0 ↔ key a = key b)

/-! ## Composition of comparisons -/

section
variable {A K L : Type} {P : A → Prop}

theorem OrderOn.imp {Q : A → Prop} {c : A → A → Int} {key : A → K} (h : OrderOn P c key) (hq : ∀ a, Q a → P a) :
    OrderOn Q c key :=
  ⟨fun a b ha hb => h.1 a b (hq a ha) (hq b hb), fun a b d ha hb hd => h.2 a b d (hq a ha) (hq b hb) (hq d hd),
    fun a b ha hb => h.3 a b (hq a ha) (hq b hb)⟩

theorem sign_le_zero (x : Int) : Int.sign x ≤ 0 ↔ x ≤ 0 := by
  rcases Int.lt_trichotomy x 0 with h | h | h
  · rw [Int.sign_eq_neg_one_of_neg h]; omega
  · subst h; simp
  · rw [Int.sign_eq_one_of_pos h]; omega

theorem OrderOn.le_swap {c : A → A → Int} {key : A → K} (h : OrderOn P c key) {a b : A} (ha : P a) (hb : P b) :
    c b a ≤ 0 ↔ 0 ≤ c a b := by
  rw [← sign_le_zero, h.1 a b ha hb]
  rcases Int.lt_trichotomy (c a b) 0 with h | h | h
  · rw [Int.sign_eq_neg_one_of_neg h]; omega
  · rw [h]; simp
  · rw [Int.sign_eq_one_of_pos h]; omega

theorem sign_orElse0 (x y : Int) : Int.sign (orElse0 x y) = if x ≠ 0 then Int.sign x else Int.sign y := by
  unfold orElse0; split <;> rfl

/-- Comparing by one key and then by another. -/
theorem OrderOn.lex {c d : A → A → Int} {k : A → K} {l : A → L} (hc : OrderOn P c k) (hd : OrderOn P d l) :
    OrderOn P (fun a b => orElse0 (c a b) (d a b)) (fun a => (k a, l a)) where
  antisymm a b ha hb := by
    rw [sign_orElse0, sign_orElse0, hc.1 a b ha hb, hd.1 a b ha hb]
    have hz : c b a = 0 ↔ c a b = 0 := by rw [hc.3 a b ha hb, hc.3 b a hb ha]; exact eq_comm
    by_cases h : c a b = 0
    · rw [if_neg (by simp [hz, h]), if_neg (by simp [h])]
    · rw [if_pos (by simp [hz, h]), if_pos (by simp [h])]
  trans a b e ha hb he h1 h2 := by
    simp only [orElse0] at h1 h2 ⊢
    have l1 : c a b ≤ 0 := by split at h1 <;> omega
    have l2 : c b e ≤ 0 := by split at h2 <;> omega
    have l3 := hc.2 a b e ha hb he l1 l2
    by_cases h0 : c a e = 0
    · rw [if_neg (by simp [h0])]
      have h0' : c e a ≤ 0 := by
        have : c e a = 0 := by rw [hc.3 e a he ha]; exact ((hc.3 a e ha he).1 h0).symm
        omega
      have m1 := hc.2 e a b he ha hb h0' l1
      have m2 : 0 ≤ c b e := (hc.le_swap hb he).1 m1
      have m3 := hc.2 b e a hb he ha l2 h0'
      have m4 : 0 ≤ c a b := (hc.le_swap ha hb).1 m3
      rw [if_neg (by omega)] at h1 h2
      exact hd.2 a b e ha hb he h1 h2
    · rw [if_pos h0]; exact l3
  zero_iff a b ha hb := by
    simp only [orElse0, Prod.mk.injEq, ← hc.3 a b ha hb, ← hd.3 a b ha hb]
    split
    · next h => constructor
                · intro h'; exact absurd h' h
                · rintro ⟨h', _⟩; exact absurd h' h
    · next h => rw [not_not] at h; simp [h]

theorem OrderOn.comap {B : Type} {Q : B → Prop} {c : B → B → Int} {k : B → K} (h : OrderOn Q c k) (f : A → B)
    (hf : ∀ a, P a → Q (f a)) : OrderOn P (fun a b => c (f a) (f b)) (fun a => k (f a)) :=
  ⟨fun a b ha hb => h.1 _ _ (hf a ha) (hf b hb), fun a b d ha hb hd => h.2 _ _ _ (hf a ha) (hf b hb) (hf d hd),
    fun a b ha hb => h.3 _ _ (hf a ha) (hf b hb)⟩

theorem OrderOn.congrKey {c : A → A → Int} {k : A → K} {l : A → L} (h : OrderOn P c k)
    (hk : ∀ a b, k a = k b ↔ l a = l b) : OrderOn P c l :=
  ⟨h.1, h.2, fun a b ha hb => (h.3 a b ha hb).trans (hk a b)⟩

/-- The opposite comparison. -/
theorem OrderOn.flip {c : A → A → Int} {k : A → K} (h : OrderOn P c k) : OrderOn P (fun a b => c b a) k :=
  ⟨fun a b ha hb => h.1 b a hb ha, fun a b d ha hb hd h1 h2 => h.2 d b a hd hb ha h2 h1,
    fun a b ha hb => (h.3 b a hb ha).trans eq_comm⟩

theorem OrderOn.trivial : OrderOn P (fun _ _ => 0) (fun _ => ()) :=
  ⟨fun _ _ _ _ => rfl, fun _ _ _ _ _ _ _ _ => Int.le_refl _, fun _ _ _ _ => by simp⟩

end

theorem order_strcmp0 : OrderOn (fun _ => True) strcmp0 id :=
  ⟨fun a b _ _ => by rw [strcmp0_swap, Int.sign_neg], fun _ _ _ _ _ _ h1 h2 => strcmp0_trans h1 h2,
    fun _ _ _ _ => strcmp0_eq_zero⟩

/-- A member small enough for differences to fit an `int`. -/
def Small (n : Nat) : Prop := n < 2147483648

instance (n : Nat) : Decidable (Small n) := by unfold Small; infer_instance

theorem diff32_small {a b : Nat} (ha : Small a) (hb : Small b) : diff32 a b = (a : Int) - b := by
  unfold Small at *
  unfold diff32 wrap32
  omega

theorem order_diff32 : OrderOn Small diff32 id where
  antisymm a b ha hb := by
    rw [diff32_small ha hb, diff32_small hb ha, ← Int.sign_neg]; congr 1; omega
  trans a b d ha hb hd h1 h2 := by
    rw [diff32_small ha hb] at h1; rw [diff32_small hb hd] at h2; rw [diff32_small ha hd]; omega
  zero_iff a b ha hb := by rw [diff32_small ha hb]; simp only [id]; omega

theorem order_diffBool : OrderOn (fun _ => True) diffBool id where
  antisymm a b _ _ := by cases a <;> cases b <;> rfl
  trans a b d _ _ _ h1 h2 := by cases a <;> cases b <;> cases d <;> revert h1 h2 <;> decide
  zero_iff a b _ _ := by cases a <;> cases b <;> decide

theorem ret64_small {a b : Nat} (ha : Small a) (hb : Small b) (y : Int) : ret64 a b y = orElse0 (diff32 a b) y := by
  unfold ret64 orElse0
  rw [diff32_small ha hb]
  unfold Small at *
  have h64 : wrap64 ((a : Int) - b) = (a : Int) - b := by unfold wrap64; omega
  have h32 : wrap32 ((a : Int) - b) = (a : Int) - b := by unfold wrap32; omega
  simp only [h64, h32]

theorem order_congr {A K : Type} {P : A → Prop} {c d : A → A → Int} {k : A → K} (h : OrderOn P c k)
    (e : ∀ a b, P a → P b → d a b = c a b) : OrderOn P d k :=
  ⟨fun a b ha hb => by rw [e a b ha hb, e b a hb ha]; exact h.1 a b ha hb,
   fun a b x ha hb hx h1 h2 => by
     rw [e a b ha hb] at h1; rw [e b x hb hx] at h2; rw [e a x ha hx]; exact h.2 a b x ha hb hx h1 h2,
   fun a b ha hb => by rw [e a b ha hb]; exact h.3 a b ha hb⟩

/-- The string attribute `f`. -/
theorem order_str {A : Type} {P : A → Prop} (f : A → Option Str) : OrderOn P (fun a b => strcmp0 (f a) (f b)) f :=
  order_strcmp0.comap f (fun _ _ => trivial)

/-- The numeric attribute `f`. -/
theorem order_num {A : Type} {P : A → Prop} (f : A → Nat) (h : ∀ a, P a → Small (f a)) :
    OrderOn P (fun a b => diff32 (f a) (f b)) f := order_diff32.comap f h

/-- The Boolean attribute `f`. -/
theorem order_bool {A : Type} {P : A → Prop} (f : A → Bool) : OrderOn P (fun a b => diffBool (f a) (f b)) f :=
  order_diffBool.comap f (fun _ _ => trivial)

/-! ## C23 -/

/-- C23 for GDB frames with line and frame numbers below 2^31, comparing frame numbers or not. Frames of called signal
handlers are all equal. -/
theorem C23_gdb_partial (n : Bool) : OrderOn (fun f : GdbFrame => Small f.sourceLine ∧ Small f.number) (gdbCmp n)
    (fun f => if f.signalHandlerCalled then none else some
      (f.functionName, f.functionType, f.sourceFile, f.sourceLine, f.libraryName, if n then some f.number else none)) := by
  have num : OrderOn (fun f : GdbFrame => Small f.sourceLine ∧ Small f.number)
      (fun f g => if n then orElse0 (diff32 f.number g.number) 0 else 0)
      (fun f => if n then some f.number else none) := by
    cases n
    · exact OrderOn.trivial.congrKey (by simp)
    · exact ((order_num _ (fun _ h => h.2)).lex OrderOn.trivial).congrKey (by simp)
  have base : OrderOn (fun f : GdbFrame => Small f.sourceLine ∧ Small f.number)
      (fun f g => orElse0 (strcmp0 f.functionName g.functionName) <|
        orElse0 (strcmp0 f.functionType g.functionType) <|
        orElse0 (strcmp0 f.sourceFile g.sourceFile) <|
        orElse0 (diff32 f.sourceLine g.sourceLine) <|
        orElse0 (strcmp0 f.libraryName g.libraryName) <|
        if n then orElse0 (diff32 f.number g.number) 0 else 0)
      (fun f => (f.functionName, f.functionType, f.sourceFile, f.sourceLine, f.libraryName,
        if n then some f.number else none)) :=
    (order_str _).lex ((order_str _).lex ((order_str _).lex ((order_num _ (fun _ h => h.1)).lex
      ((order_str _).lex num))))
  refine ⟨?_, ?_, ?_⟩
  · intro a b ha hb
    unfold gdbCmp
    cases h1 : a.signalHandlerCalled <;> cases h2 : b.signalHandlerCalled
    · simpa using base.1 a b ha hb
    · simp
    · simp
    · simp
  · intro a b d ha hb hd
    unfold gdbCmp
    cases h1 : a.signalHandlerCalled <;> cases h2 : b.signalHandlerCalled <;> cases h3 : d.signalHandlerCalled <;> simp
    simpa using base.2 a b d ha hb hd
  · intro a b ha hb
    unfold gdbCmp
    cases h1 : a.signalHandlerCalled <;> cases h2 : b.signalHandlerCalled <;> simp
    simpa using base.3 a b ha hb

/-- C23 for core frames with offsets below 2^31; the address and the kind of fingerprint are not compared. -/
theorem C23_core_partial : OrderOn (fun f : CoreFrame => Small f.buildIdOffset) coreCmp
    (fun f => (f.buildId, f.buildIdOffset, f.functionName, f.fileName, f.fingerprint)) := by
  have base : OrderOn (fun f : CoreFrame => Small f.buildIdOffset) coreCmp
      (fun f => (f.buildId, f.buildIdOffset, f.functionName, f.fileName, f.fingerprint, ())) :=
    (order_str _).lex ((order_num _ (fun _ h => h)).lex ((order_str _).lex ((order_str _).lex
      ((order_str _).lex OrderOn.trivial))))
  exact base.congrKey (fun a b => by simp)

/-- The numeric members of a kernel oops frame are below 2^31. -/
def KoopsSmall (f : KoopsFrame) : Prop :=
  Small f.address ∧ Small f.functionOffset ∧ Small f.functionLength ∧ Small f.fromAddress ∧ Small f.fromFunctionOffset ∧
    Small f.fromFunctionLength

/-- C23 for kernel oops frames with all numbers below 2^31; all attributes are compared. -/
theorem C23_koops_partial : OrderOn KoopsSmall koopsCmp (fun f => f) := by
  have base : OrderOn KoopsSmall
      (fun f g => orElse0 (diff32 g.address f.address) <|
        orElse0 (diffBool g.reliable f.reliable) <|
        orElse0 (strcmp0 f.functionName g.functionName) <|
        orElse0 (diff32 g.functionOffset f.functionOffset) <|
        orElse0 (diff32 g.functionLength f.functionLength) <|
        orElse0 (strcmp0 f.moduleName g.moduleName) <|
        orElse0 (diff32 g.fromAddress f.fromAddress) <|
        orElse0 (strcmp0 f.fromFunctionName g.fromFunctionName) <|
        orElse0 (diff32 g.fromFunctionOffset f.fromFunctionOffset) <|
        orElse0 (diff32 g.fromFunctionLength f.fromFunctionLength) <|
        orElse0 (strcmp0 f.fromModuleName g.fromModuleName) <|
        orElse0 (strcmp0 f.specialStack g.specialStack) 0)
      (fun f => (f.address, f.reliable, f.functionName, f.functionOffset, f.functionLength, f.moduleName, f.fromAddress,
        f.fromFunctionName, f.fromFunctionOffset, f.fromFunctionLength, f.fromModuleName, f.specialStack, ())) :=
    (order_num _ (fun _ h => h.1)).flip.lex <| (order_bool _).flip.lex <| (order_str _).lex <|
      (order_num _ (fun _ h => h.2.1)).flip.lex <| (order_num _ (fun _ h => h.2.2.1)).flip.lex <| (order_str _).lex <|
      (order_num _ (fun _ h => h.2.2.2.1)).flip.lex <| (order_str _).lex <|
      (order_num _ (fun _ h => h.2.2.2.2.1)).flip.lex <| (order_num _ (fun _ h => h.2.2.2.2.2)).flip.lex <|
      (order_str _).lex <| (order_str _).lex OrderOn.trivial
  apply order_congr (base.congrKey (l := fun f => f) ?_) ?_
  · intro a b; cases a; cases b; simp
  · intro f g hf hg
    unfold koopsCmp
    rw [ret64_small hg.2.1 hf.2.1, ret64_small hg.2.2.1 hf.2.2.1, ret64_small hg.2.2.2.2.1 hf.2.2.2.2.1,
      ret64_small hg.2.2.2.2.2 hf.2.2.2.2.2]

/-- C23 for Python frames with line numbers below 2^31; all attributes are compared. -/
theorem C23_python_partial : OrderOn (fun f : PythonFrame => Small f.fileLine) pythonCmp (fun f => f) := by
  have base : OrderOn (fun f : PythonFrame => Small f.fileLine) pythonCmp
      (fun f => (f.functionName, f.fileName, f.fileLine, f.specialFunction, f.specialFile, f.lineContents, ())) :=
    (order_str _).lex <| (order_str _).lex <| (order_num _ (fun _ h => h)).lex <| (order_bool _).lex <|
      (order_bool _).lex <| (order_str _).lex OrderOn.trivial
  apply base.congrKey
  intro a b; cases a; cases b; simp; tauto

/-- C23 for Java frames with line numbers below 2^31. Of an exception only the name is compared. -/
theorem C23_java_partial : OrderOn (fun f : JavaFrame => Small f.fileLine) javaCmp
    (fun f => (f.isException, f.name, if f.isException then none else some
      (f.classPath, f.fileName, f.isNative, f.fileLine))) := by
  have method : OrderOn (fun f : JavaFrame => Small f.fileLine)
      (fun f g => orElse0 (strcmp0 f.name g.name) <| orElse0 (strcmp0 f.classPath g.classPath) <|
        orElse0 (strcmp0 f.fileName g.fileName) <| orElse0 (diffBool f.isNative g.isNative) <|
        diff32 f.fileLine g.fileLine)
      (fun f => (f.name, f.classPath, f.fileName, f.isNative, f.fileLine)) :=
    (order_str _).lex <| (order_str _).lex <| (order_str _).lex <| (order_bool _).lex <| order_num _ (fun _ h => h)
  have exc : OrderOn (fun f : JavaFrame => Small f.fileLine)
      (fun f g => orElse0 (strcmp0 f.name g.name) 0) (fun f => (f.name, ())) := (order_str _).lex OrderOn.trivial
  have native : ∀ (a b : Bool) (y : Int), (if a ≠ b then (if a = true then 1 else -1) else y) = orElse0 (diffBool a b) y := by
    intro a b y; cases a <;> cases b <;> simp [orElse0, diffBool]
  refine ⟨?_, ?_, ?_⟩
  · intro a b ha hb
    unfold javaCmp
    simp only [native a.isNative b.isNative, native b.isNative a.isNative]
    cases h1 : a.isException <;> cases h2 : b.isException
    · simpa using method.1 a b ha hb
    · simp
    · simp
    · simpa using exc.1 a b ha hb
  · intro a b d ha hb hd
    unfold javaCmp
    simp only [native a.isNative b.isNative, native b.isNative d.isNative, native a.isNative d.isNative]
    cases h1 : a.isException <;> cases h2 : b.isException <;> cases h3 : d.isException <;> simp
    · simpa using method.2 a b d ha hb hd
    · simpa using exc.2 a b d ha hb hd
  · intro a b ha hb
    unfold javaCmp
    simp only [native a.isNative b.isNative]
    cases h1 : a.isException <;> cases h2 : b.isException <;> simp
    · simpa using method.3 a b ha hb
    · simpa using exc.3 a b ha hb

/-- C23 for Ruby frames with all numbers below 2^31; all attributes are compared. -/
theorem C23_ruby_partial : OrderOn (fun f : RubyFrame => Small f.fileLine ∧ Small f.blockLevel ∧ Small f.rescueLevel)
    rubyCmp (fun f => f) := by
  have base : OrderOn (fun f : RubyFrame => Small f.fileLine ∧ Small f.blockLevel ∧ Small f.rescueLevel) rubyCmp
      (fun f => (f.functionName, f.fileName, f.fileLine, f.specialFunction, f.blockLevel, f.rescueLevel, ())) :=
    (order_str _).lex <| (order_str _).lex <| (order_num _ (fun _ h => h.1)).lex <| (order_bool _).lex <|
      (order_num _ (fun _ h => h.2.1)).lex <| (order_num _ (fun _ h => h.2.2)).lex OrderOn.trivial
  apply base.congrKey
  intro a b; cases a; cases b; simp; tauto

/-- C23 for JavaScript frames with numbers below 2^31; all attributes are compared. -/
theorem C23_js_partial : OrderOn (fun f : JsFrame => Small f.fileLine ∧ Small f.lineColumn) jsCmp (fun f => f) := by
  have base : OrderOn (fun f : JsFrame => Small f.fileLine ∧ Small f.lineColumn) jsCmp
      (fun f => (f.functionName, f.fileName, f.fileLine, f.lineColumn, ())) :=
    (order_str _).lex <| (order_str _).lex <| (order_num _ (fun _ h => h.1)).lex <|
      (order_num _ (fun _ h => h.2)).lex OrderOn.trivial
  apply base.congrKey
  intro a b; cases a; cases b; simp; tauto

/-- C23 fails for GDB frames with arbitrary `uint32_t` lines: each of two frames is less than the other. -/
theorem C23_not_gdb : ∃ f g : GdbFrame, f.sourceLine < 2 ^ 32 ∧ g.sourceLine < 2 ^ 32 ∧
    gdbCmp true f g < 0 ∧ gdbCmp true g f < 0 :=
  ⟨{}, { sourceLine := 2 ^ 31 }, by decide, by decide, by decide +kernel, by decide +kernel⟩

/-- C23 fails for core frames: offsets a multiple of 2^32 apart compare equal. -/
theorem C23_not_core : ∃ f g : CoreFrame, f.buildIdOffset < 2 ^ 64 ∧ g.buildIdOffset < 2 ^ 64 ∧
    coreCmp f g = 0 ∧ f.buildIdOffset ≠ g.buildIdOffset :=
  ⟨{}, { buildIdOffset := 2 ^ 32 }, by decide, by decide, by decide +kernel, by decide⟩

/-- C23 fails for kernel oops frames, even with realistic kernel addresses: of three frames each is less than the
next one in a circle. -/
theorem C23_not_koops : ∃ f g h : KoopsFrame, koopsCmp f g < 0 ∧ koopsCmp g h < 0 ∧ koopsCmp h f < 0 :=
  ⟨{ address := 0xffffffff81600000 }, { address := 0xffffffff01600000 }, { address := 0xfffffffec1600000 },
    by decide +kernel, by decide +kernel, by decide +kernel⟩

/-- C23 fails for kernel oops frames: a difference of 2^32 in the offset hides all attributes compared later. -/
theorem C23_not_koops_zero : ∃ f g : KoopsFrame, koopsCmp f g = 0 ∧ f.functionOffset ≠ g.functionOffset ∧
    f.moduleName ≠ g.moduleName :=
  ⟨{ moduleName := some c!"a" }, { functionOffset := 2 ^ 32, moduleName := some c!"b" }, by decide +kernel, by decide, by decide⟩

/-- C23 fails for Python frames with arbitrary `uint32_t` lines. -/
theorem C23_not_python : ∃ f g : PythonFrame, f.fileLine < 2 ^ 32 ∧ g.fileLine < 2 ^ 32 ∧
    pythonCmp f g < 0 ∧ pythonCmp g f < 0 :=
  ⟨{}, { fileLine := 2 ^ 31 }, by decide, by decide, by decide +kernel, by decide +kernel⟩

/-- C23 fails for Java frames with arbitrary `uint32_t` lines. -/
theorem C23_not_java : ∃ f g : JavaFrame, f.fileLine < 2 ^ 32 ∧ g.fileLine < 2 ^ 32 ∧ javaCmp f g < 0 ∧ javaCmp g f < 0 :=
  ⟨{}, { fileLine := 2 ^ 31 }, by decide, by decide, by decide +kernel, by decide +kernel⟩

/-- C23 fails for Ruby frames with arbitrary `uint32_t` lines. -/
theorem C23_not_ruby : ∃ f g : RubyFrame, f.fileLine < 2 ^ 32 ∧ g.fileLine < 2 ^ 32 ∧ rubyCmp f g < 0 ∧ rubyCmp g f < 0 :=
  ⟨{}, { fileLine := 2 ^ 31 }, by decide, by decide, by decide +kernel, by decide +kernel⟩

/-- C23 fails for JavaScript frames with arbitrary `uint32_t` lines. -/
theorem C23_not_js : ∃ f g : JsFrame, f.fileLine < 2 ^ 32 ∧ g.fileLine < 2 ^ 32 ∧ jsCmp f g < 0 ∧ jsCmp g f < 0 :=
  ⟨{}, { fileLine := 2 ^ 31 }, by decide, by decide, by decide +kernel, by decide +kernel⟩

/-! ## C24 -/

/-- Two frames are the same for the distance functions. -/
def Same {A : Type} (c : A → A → Int) (a b : A) : Prop := c a b = 0

theorem orElse0_eq_zero (x y : Int) : orElse0 x y = 0 ↔ x = 0 ∧ y = 0 := by
  unfold orElse0; split <;> simp_all

theorem diffBool_eq_zero {a b : Bool} : diffBool a b = 0 ↔ a = b := by cases a <;> cases b <;> decide

theorem diff32_eq_zero {a b : Nat} (ha : a < 2 ^ 32) (hb : b < 2 ^ 32) : diff32 a b = 0 ↔ a = b := by
  unfold diff32 wrap32; omega

/-- C24 for kernel oops frames. -/
theorem C24_koops : Equivalence (Same koopsCmpDistance) := by
  have h : ∀ a b, Same koopsCmpDistance a b ↔ a.functionName = b.functionName := by
    intro a b; simp [Same, koopsCmpDistance, orElse0_eq_zero, strcmp0_eq_zero]
  exact ⟨fun a => (h a a).2 rfl, fun e => (h _ _).2 ((h _ _).1 e).symm, fun e e' => (h _ _).2 (((h _ _).1 e).trans ((h _ _).1 e'))⟩

/-- C24 for Python frames. -/
theorem C24_python : Equivalence (Same pythonCmpDistance) := by
  have h : ∀ a b, Same pythonCmpDistance a b ↔
      (a.functionName, a.fileName, a.specialFunction, a.specialFile) =
      (b.functionName, b.fileName, b.specialFunction, b.specialFile) := by
    intro a b; simp [Same, pythonCmpDistance, orElse0_eq_zero, strcmp0_eq_zero, diffBool_eq_zero]
  exact ⟨fun a => (h a a).2 rfl, fun e => (h _ _).2 ((h _ _).1 e).symm, fun e e' => (h _ _).2 (((h _ _).1 e).trans ((h _ _).1 e'))⟩

/-- C24 for Java frames. -/
theorem C24_java : Equivalence (Same javaCmpDistance) := by
  have h : ∀ a b, Same javaCmpDistance a b ↔ a.name = b.name := by
    intro a b; simp [Same, javaCmpDistance, orElse0_eq_zero, strcmp0_eq_zero]
  exact ⟨fun a => (h a a).2 rfl, fun e => (h _ _).2 ((h _ _).1 e).symm, fun e e' => (h _ _).2 (((h _ _).1 e).trans ((h _ _).1 e'))⟩

/-- C24 for Ruby frames. -/
theorem C24_ruby : Equivalence (Same rubyCmpDistance) := by
  have h : ∀ a b, Same rubyCmpDistance a b ↔
      (a.functionName, a.fileName, a.specialFunction) = (b.functionName, b.fileName, b.specialFunction) := by
    intro a b; simp [Same, rubyCmpDistance, orElse0_eq_zero, strcmp0_eq_zero, diffBool_eq_zero]
  exact ⟨fun a => (h a a).2 rfl, fun e => (h _ _).2 ((h _ _).1 e).symm, fun e e' => (h _ _).2 (((h _ _).1 e).trans ((h _ _).1 e'))⟩

/-- C24 for JavaScript frames (whose line is a `uint32_t`). -/
theorem C24_js : Equivalence (fun a b : { f : JsFrame // f.fileLine < 2 ^ 32 } => Same jsCmpDistance a.1 b.1) := by
  have h : ∀ a b : { f : JsFrame // f.fileLine < 2 ^ 32 }, Same jsCmpDistance a.1 b.1 ↔
      (a.1.fileLine, a.1.functionName, a.1.fileName) = (b.1.fileLine, b.1.functionName, b.1.fileName) := by
    intro a b; simp [Same, jsCmpDistance, orElse0_eq_zero, strcmp0_eq_zero, diff32_eq_zero a.2 b.2]
  exact ⟨fun a => (h a a).2 rfl, fun e => (h _ _).2 ((h _ _).1 e).symm, fun e e' => (h _ _).2 (((h _ _).1 e).trans ((h _ _).1 e'))⟩

/-- C24 for GDB frames whose function and library are known. -/
theorem C24_gdb_partial : Equivalence (fun a b : { f : GdbFrame // f.functionName ≠ some c!"??" ∧ f.libraryName ≠ none } =>
    Same gdbCmpDistance a.1 b.1) := by
  have h : ∀ a b : { f : GdbFrame // f.functionName ≠ some c!"??" ∧ f.libraryName ≠ none }, Same gdbCmpDistance a.1 b.1 ↔
      (a.1.functionName, a.1.libraryName) = (b.1.functionName, b.1.libraryName) := by
    rintro ⟨a, ha1, ha2⟩ ⟨b, hb1, hb2⟩
    obtain ⟨x, hx⟩ := Option.ne_none_iff_exists'.1 ha2
    obtain ⟨y, hy⟩ := Option.ne_none_iff_exists'.1 hb2
    simp only [Same, gdbCmpDistance, strcmp0_eq_zero]
    rw [if_neg (fun hh => ha1 hh.1), orElse0_eq_zero, strcmp0_eq_zero, hx, hy]
    simp [strcmp_eq_zero]
  exact ⟨fun a => (h a a).2 rfl, fun e => (h _ _).2 ((h _ _).1 e).symm, fun e e' => (h _ _).2 (((h _ _).1 e).trans ((h _ _).1 e'))⟩

/-- C24 for GDB frames: symmetry holds without restriction. -/
theorem C24_gdb_symm (a b : GdbFrame) (h : Same gdbCmpDistance a b) : Same gdbCmpDistance b a := by
  unfold Same gdbCmpDistance at *
  split at h
  · cases h
  · next hn =>
    rw [if_neg (fun hh => hn hh.symm)]
    rw [orElse0_eq_zero] at h ⊢
    refine ⟨by rw [strcmp0_swap, h.1]; rfl, ?_⟩
    cases ha : a.libraryName <;> cases hb : b.libraryName <;> rw [ha, hb] at h <;> simp only
    have h2 := h.2
    simp only at h2
    rw [strcmp_swap, h2]; rfl

/-- C24 fails for GDB frames: a frame with an unknown function is not the same as itself. -/
theorem C24_not_gdb_refl : ∃ f, ¬ Same gdbCmpDistance f f :=
  ⟨{ functionName := some c!"??" }, by unfold Same; decide +kernel⟩

/-- C24 fails for GDB frames: a frame without library is the same as frames from different libraries. -/
theorem C24_not_gdb_trans : ∃ f g h, Same gdbCmpDistance f g ∧ Same gdbCmpDistance g h ∧ ¬ Same gdbCmpDistance f h :=
  ⟨{ functionName := some c!"f", libraryName := some c!"a" }, { functionName := some c!"f" },
    { functionName := some c!"f", libraryName := some c!"b" },
    by unfold Same; decide +kernel, by unfold Same; decide +kernel, by unfold Same; decide +kernel⟩

/-- C24 for core frames with function names. -/
theorem C24_core_partial : Equivalence (fun a b : { f : CoreFrame // f.functionName ≠ none } =>
    Same coreCmpDistance a.1 b.1) := by
  have h : ∀ a b : { f : CoreFrame // f.functionName ≠ none }, Same coreCmpDistance a.1 b.1 ↔
      a.1.functionName = b.1.functionName := by
    rintro ⟨a, ha⟩ ⟨b, hb⟩
    obtain ⟨x, hx⟩ := Option.ne_none_iff_exists'.1 ha
    obtain ⟨y, hy⟩ := Option.ne_none_iff_exists'.1 hb
    simp only [Same, coreCmpDistance, hx, hy, strcmp_eq_zero, Option.some.injEq]
  exact ⟨fun a => (h a a).2 rfl, fun e => (h _ _).2 ((h _ _).1 e).symm, fun e e' => (h _ _).2 (((h _ _).1 e).trans ((h _ _).1 e'))⟩

/-- C24 for core frames: reflexivity holds without restriction. -/
theorem C24_core_refl (a : CoreFrame) : Same coreCmpDistance a a := by
  unfold Same coreCmpDistance
  cases a.functionName with
  | some x => simp
  | none => simp [diff32, wrap32]

theorem wrap32_neg_eq_zero (x : Int) : wrap32 (-x) = 0 ↔ wrap32 x = 0 := by unfold wrap32; omega

theorem diff32_comm_zero (a b : Nat) : diff32 b a = 0 ↔ diff32 a b = 0 := by
  unfold diff32
  rw [← wrap32_neg_eq_zero]
  have : -((b : Int) - a) = a - b := by omega
  rw [this]

/-- C24 for core frames: symmetry holds without restriction. -/
theorem C24_core_symm (a b : CoreFrame) (h : Same coreCmpDistance a b) : Same coreCmpDistance b a := by
  unfold Same coreCmpDistance at *
  have hs : strcmp0 b.buildId a.buildId = 0 ↔ strcmp0 a.buildId b.buildId = 0 := by
    rw [strcmp0_eq_zero, strcmp0_eq_zero]; exact eq_comm
  have hd := diff32_comm_zero a.buildIdOffset b.buildIdOffset
  have rest : ∀ (fa fb : Option Str), (let buildId := strcmp0 a.buildId b.buildId
      let offset := diff32 a.buildIdOffset b.buildIdOffset
      if buildId = 0 ∧ offset = 0 then (0 : Int) else
        match fa, fb with | some x, some y => strcmp x y | _, _ => if buildId ≠ 0 then buildId else offset) = 0 →
      (let buildId := strcmp0 b.buildId a.buildId
      let offset := diff32 b.buildIdOffset a.buildIdOffset
      if buildId = 0 ∧ offset = 0 then (0 : Int) else
        match fb, fa with | some x, some y => strcmp x y | _, _ => if buildId ≠ 0 then buildId else offset) = 0 := by
    intro fa fb
    simp only [hs, hd]
    by_cases hz : strcmp0 a.buildId b.buildId = 0 ∧ diff32 a.buildIdOffset b.buildIdOffset = 0
    · simp [hz]
    · simp only [hz, if_false]
      cases fa <;> cases fb <;> simp only
      · intro h; exfalso; apply hz; split at h <;> simp_all
      · intro h; exfalso; apply hz; split at h <;> simp_all
      · intro h; exfalso; apply hz; split at h <;> simp_all
      · rw [strcmp_eq_zero, strcmp_eq_zero]; exact Eq.symm
  cases ha : a.functionName <;> cases hb : b.functionName <;> rw [ha, hb] at h <;> simp only at h ⊢
  · exact rest a.fingerprint b.fingerprint h
  · exact rest a.fingerprint b.fingerprint h
  · exact rest a.fingerprint b.fingerprint h
  · rw [strcmp_swap, h]; rfl

/-- C24 fails for core frames: one without name matches frames with different names from the same build. -/
theorem C24_not_core_trans : ∃ f g h, Same coreCmpDistance f g ∧ Same coreCmpDistance g h ∧ ¬ Same coreCmpDistance f h :=
  ⟨{ functionName := some c!"f" }, {}, { functionName := some c!"g" },
    by unfold Same; decide +kernel, by unfold Same; decide +kernel, by unfold Same; decide +kernel⟩

/-! ### Non-vacuity -/

example : gdbCmp true { functionName := some c!"f", sourceLine := 3 } { functionName := some c!"f", sourceLine := 5 } = -2 := by
  decide +kernel
example : Small 2147483647 ∧ ¬ Small 2147483648 := by decide
example : KoopsSmall { address := 7 } := by unfold KoopsSmall; decide
example : javaCmp { name := some c!"a", isException := true, message := some c!"x" }
    { name := some c!"a", isException := true, message := some c!"y" } = 0 := by decide +kernel

end Satyr.Frames
