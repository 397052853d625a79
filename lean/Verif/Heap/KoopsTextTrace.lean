import Verif.Heap.KoopsTextModules
import Verif.Heap.TextProps
/-!
# Reading kernel oopses from text: memory of stack traces
-/
namespace Satyr.Text.Koops
open Satyr.CStr

/-! ## Specification: what is lost -/

/-- The label of the stack that another label takes the place of, in a line with frames. -/
def replacedLabel (st : State) (s : Str) : Out (List Str) := do
  let e ← altEnd s
  let b ← altStart e.2
  .ok (if b.1.isSome ∧ e.1 = false then st.stack.toList else [])

/-- The same in a line, and the parts of names of modules. -/
def lostInLine (st : State) (s : Str) : Out (List Str) := do
  let m ← firstModules st s
  match m with
  | some _ => brokenModules s
  | none => do
    let i ← firstIp st s
    match i with
    | some _ => .ok []
    | none => replacedLabel st s

/-- The same in all lines. -/
def lostInLines : Nat → State → Str → Out (List Str)
  | 0, _, _ => .ub
  | fuel + 1, st, s =>
    if peek s = '\x00' then .ok [] else do
    let s ← skipBlanks s
    let t ← skipTimestamp s
    let s ← skipBlanks t.2
    if (skipString s c!"Last Breaking-Event-Address:\n").1 ≠ 0 then .ok [] else do
    let l ← lostInLine st s
    let r ← line st s
    let n ← skipChar r.2 '\n'
    let more ← lostInLines fuel r.1 n.2
    .ok (l ++ more)

/-- The texts that `sr_koops_stacktrace_parse` does not free: the second parts of the names of modules that are broken over two
lines, and the labels of stacks (`<IRQ>`) that are followed by another label before their end (`<EOI>`). -/
def lostTexts (s : Str) : Out (List Str) := lostInLines (s.length + 1) {} s

end Satyr.Text.Koops

namespace Satyr.Heap
open Satyr.CStr
open Satyr.Text
open Satyr.Frames
open Satyr.Json (Value)

/-! ## Memory that stays -/

theorem Leaves.texts {m l m'} (h : Leaves m l m') : ∃ ps, AllTexts m' l ps ∧ Adds m m' ps := by
  obtain ⟨ps, f, h1, h2⟩ := h
  have key : ∀ {ss : List Str} {ps f}, Texts m' (ss.map some) ps f → AllTexts m' ss ps ∧ f = ps := by
    intro ss
    induction ss with
    | nil => intro ps f h; cases h; exact ⟨.nil, rfl⟩
    | cons s ss ih =>
      intro ps f h
      cases h with
      | some a b c => obtain ⟨h1, h2⟩ := ih c; exact ⟨.cons ⟨a, b⟩ h1, by rw [h2]⟩
  obtain ⟨h3, rfl⟩ := key h1
  exact ⟨f, h3, h2⟩

theorem Leaves.of {m l m' ps} (h : AllTexts m' l ps) (hA : Adds m m' ps) : Leaves m l m' := ⟨ps, ps, h.texts, hA⟩

theorem AllTexts.append {m ss ps ss' ps'} (h : AllTexts m ss ps) (h' : AllTexts m ss' ps') : AllTexts m (ss ++ ss') (ps ++ ps') := by
  induction h with
  | nil => exact h'
  | cons h _ ih => exact .cons h ih

theorem Leaves.trans {m l m' l' m''} (h : Leaves m l m') (h' : Leaves m' l' m'') : Leaves m (l ++ l') m'' := by
  obtain ⟨ps, h1, h2⟩ := h.texts
  obtain ⟨qs, h3, h4⟩ := h'.texts
  exact .of ((h1.ext h4.ext).append h3) (h2.trans h4)

/-- Texts that are added may be taken as there from the beginning. -/
theorem Built.leaves {k j m₀ m p x l m'} (h : Built k j m₀ m p x) (hl : Leaves m l m') :
    ∃ m₁, Leaves m₀ l m₁ ∧ Built k j m₁ m' p x := by
  obtain ⟨ps, h1, hA⟩ := hl.texts
  have hE := h.ext
  have hfresh : ∀ y ∈ ps, m₀ y = none := fun y hy => by
    by_contra hne
    exact hne (by rw [← hE y hne]; exact hA.fresh y hy)
  refine ⟨fun y => if y ∈ ps then m' y else m₀ y, .of (h1.congr fun y hy => if_pos hy)
    ⟨hA.nodup, hfresh, fun y hy => by rw [if_pos hy]; exact hA.used y hy, fun y hy => if_neg hy⟩, ?_⟩
  obtain ⟨hok, r, fs, fa, fb, fc, fe, i0, i1, i2, i3, i4, ia, ib, ic, ie, hn, hw, hadds⟩ := h.more hA
  have hd := List.nodup_append.1 hadds.nodup
  refine ⟨hok, r, fs, fa, fb, fc, fe, i0, i1, i2, i3, i4, ia, ib, ic, ie, hn, hw, hd.1, fun y hy => ?_, fun y hy => hadds.used y (by simp only [List.mem_append]; exact .inl hy), fun y hy => ?_⟩
  · rw [if_neg fun hp => hd.2.2 y hy y hp rfl]
    exact hadds.fresh y (by simp only [List.mem_append]; exact .inl hy)
  · by_cases hp : y ∈ ps
    · rw [if_pos hp]
    · rw [if_neg hp]; exact hadds.same y (by simp only [List.mem_append, not_or]; exact ⟨hy, hp⟩)

/-- The label of the current stack is at `w`, in addition to `m₁`. -/
def Labelled (m₁ : Mem) (w : Ptr) : Option Str → Mem → Prop
  | none, m₂ => w = 0 ∧ m₁ = m₂
  | some l, m₂ => w ≠ 0 ∧ m₂ w = some (.text l) ∧ m₁ = m₂.set w none

theorem Labelled.leaves {m₁ w o m₂} (h : Labelled m₁ w o m₂) : Leaves m₁ o.toList m₂ := by
  cases o with
  | none => obtain ⟨_, rfl⟩ := h; exact .none _
  | some l =>
    obtain ⟨h0, h1, rfl⟩ := h
    have := Leaves.one (m := m₂.set w none) l h0 (set_eq _ _ _)
    rwa [set_set, set_same h1] at this

theorem Labelled.more {m₁ w o m₂ l m₂'} (h : Labelled m₁ w o m₂) (hl : Leaves m₂ l m₂') : ∃ m₁', Leaves m₁ l m₁' ∧ Labelled m₁' w o m₂' := by
  cases o with
  | none => obtain ⟨rfl, rfl⟩ := h; exact ⟨m₂', hl, rfl, rfl⟩
  | some s =>
    obtain ⟨h0, h1, rfl⟩ := h
    obtain ⟨ps, h2, hA⟩ := hl.texts
    have hw : w ∉ ps := fun hp => by rw [hA.fresh w hp] at h1; cases h1
    have hne : ∀ y ∈ ps, y ≠ w := fun y hy e => hw (e ▸ hy)
    refine ⟨m₂'.set w none, .of (h2.congr fun y hy => set_ne _ _ (hne y hy)) ⟨hA.nodup, fun y hy => by rw [set_ne _ _ (hne y hy)]; exact hA.fresh y hy,
      fun y hy => by rw [set_ne _ _ (hne y hy)]; exact hA.used y hy, fun y hy => ?_⟩, h0, by rw [hA.ext w (by rw [h1]; simp), h1], rfl⟩
    by_cases e : y = w
    · subst e; rw [set_eq, set_eq]
    · rw [set_ne _ _ e, set_ne _ _ e]; exact hA.same y hy

/-! ## The stack trace while it is read -/

/-- The members of the stack trace of a text. -/
def koopsSoFar (text : Str) (st : Koops.State) : Part :=
  koopsTracePart
    { taint := Satyr.Koops.parseTaintFlags text {}, modules := st.modules, rawOops := some text, frames := st.frames
      reason := some (text.takeWhile (· ≠ '\n')) }

/-- The memory: what was there, what is lost, the label of the stack, and the stack trace. -/
def Reading (text : Str) (m₀ : Mem) (lost : List Str) (w : Ptr) (st : Koops.State) (p : Ptr) (m : Mem) : Prop :=
  ∃ m₁ m₂, Leaves m₀ lost m₁ ∧ Labelled m₁ w st.stack m₂ ∧ Built .koopsTrace (sized (text.length + 2)) m₂ m p (koopsSoFar text st)

theorem Reading.end {text m₀ lost w st p m} (h : Reading text m₀ lost w st p m) :
    ∃ m', freeBlock m w = .ok m' ∧ Reading text m₀ lost 0 { st with stack := none } p m' := by
  obtain ⟨m₁, m₂, h1, h2, h3⟩ := h
  cases hs : st.stack with
  | none =>
    rw [hs] at h2
    obtain ⟨rfl, rfl⟩ := h2
    exact ⟨m, rfl, m₁, m₁, h1, ⟨rfl, rfl⟩, h3⟩
  | some l =>
    rw [hs] at h2
    obtain ⟨h0, h4, rfl⟩ := h2
    refine ⟨erase m [w], freeBlock_spec h0 (by rw [h3.ext w (by rw [h4]; simp), h4]; simp), _, _, h1, ⟨rfl, rfl⟩, ?_⟩
    refine Built.without (c := .text l) (q := w) ?_ (set_eq _ _ _)
    rw [set_set, set_same h4]
    exact h3

theorem Reading.replace {text m₀ lost w st p m} (h : Reading text m₀ lost w st p m) {q : Ptr} (l : Str) (hq : q ≠ 0)
    (hA : Adds m (m.set q (some (.text l))) [q]) :
    Reading text m₀ (lost ++ st.stack.toList) q { st with stack := some l } p (m.set q (some (.text l))) := by
  obtain ⟨m₁, m₂, h1, h2, h3⟩ := h
  have hfree : m₂ q = none := by
    by_contra hne
    exact hne (by rw [← h3.ext q hne]; exact hA.fresh q (by simp))
  refine ⟨m₂, m₂.set q (some (.text l)), h1.trans h2.leaves, ⟨hq, set_eq _ _ _, by rw [set_set, set_same hfree]⟩, ?_⟩
  exact h3.rebase hA (set_eq _ _ _)

theorem koopsLabel_spec (A : Allocator) {text m₀ lost w st p m} (h : Reading text m₀ lost w st p m) {inp b rest}
    (hv : Koops.altStart inp = .ok (b, rest)) :
    koopsLabel A inp m = .abort ∨ match (generalizing := false) b with
    | none => koopsLabel A inp m = .ok (0, rest, m)
    | some l => ∃ q m', q ≠ 0 ∧ koopsLabel A inp m = .ok (q, rest, m') ∧
        Reading text m₀ (lost ++ st.stack.toList) q { st with stack := some l } p m' := by
  unfold koopsLabel
  unfold Koops.altStart at hv
  obtain ⟨u, h1, h2⟩ := bind_ok_iff.1 hv
  clear hv
  rw [h1, bind_ok]
  obtain ⟨⟨ok, u⟩, h3, h4⟩ := bind_ok_iff.1 h2
  clear h2
  rw [h3, bind_ok]
  dsimp only at h4 ⊢
  cases ok with
  | false => cases h4; exact .inr rfl
  | true =>
  rw [if_neg (by simp)] at h4 ⊢
  obtain ⟨⟨o, u⟩, h5, h6⟩ := bind_ok_iff.1 h4
  clear h4
  rw [h5, bind_ok]
  cases o with
  | none => cases h6; exact .inr rfl
  | some l =>
  dsimp only at h6 ⊢
  obtain ⟨⟨ok, u⟩, h7, h8⟩ := bind_ok_iff.1 h6
  clear h6
  rcases alloc_spec A (.text l) m with e | ⟨q, e, hq, hA⟩
  · rw [e]; exact .inl rfl
  rw [e, bind_ok]
  dsimp only
  rw [h7, bind_ok]
  cases ok with
  | true => cases h8; exact .inr ⟨q, _, hq, rfl, h.replace l hq hA⟩
  | false =>
    cases h8
    dsimp only
    rw [if_neg (by simp), freeBlock_spec hq (by rw [set_eq]; simp), bind_ok, hA.erase]
    exact .inr rfl

theorem Reading.record {text m₀ lost w st p m} (h : Reading text m₀ lost w st p m) :
    ∃ r, m p = some (.record r) ∧ (r.b = 0 ↔ st.modules = none) := by
  obtain ⟨m₁, m₂, _, _, _, r, fs, fa, fb, fc, fe, h0, h1, h2, h3, h4, ha, hb, _⟩ := h
  refine ⟨r, h1, ?_⟩
  cases hm : st.modules with
  | none =>
    have e : (koopsSoFar text st).b = .nil := by show (match st.modules with | none => _ | some l => _) = _; rw [hm]
    rw [e] at hb
    exact ⟨fun _ => rfl, fun _ => hb.1⟩
  | some l =>
    have e : (koopsSoFar text st).b = moduleChain l := by show (match st.modules with | none => _ | some l => _) = _; rw [hm]
    rw [e] at hb
    exact ⟨fun e => absurd e (hb.ne (by cases l <;> simp [moduleChain])), fun e => by cases e⟩

/-- The modules are stored. -/
theorem Reading.modules {text m₀ lost w st p m} (h : Reading text m₀ lost w st p m) (hm : st.modules = none) {mods l m₁ q m' g}
    (hl : Leaves m l m₁) (hA : Adds m₁ m' g) (hh : Holds m' (moduleChain mods) true q g) (hlen : mods.length ≤ text.length + 1) :
    ∃ r, m' p = some (.record r) ∧
      Reading text m₀ (lost ++ l) w { st with modules := some mods } p (m'.set p (some (.record { r with b := q }))) := by
  obtain ⟨a, b, h1, h2, h3⟩ := h
  obtain ⟨b', h4, h5⟩ := h3.leaves hl
  obtain ⟨a', h6, h7⟩ := h2.more h4
  obtain ⟨hok, r, fs, fa, fb, fc, fe, i0, i1, i2, i3, i4, ia, ib, ic, ie, hn, hw, hadds⟩ := h5.more hA
  refine ⟨r, i1, a', b', h1.trans h6, h7, ?_⟩
  have e : (koopsSoFar text st).b = .nil := by show (match st.modules with | none => _ | some l => _) = _; rw [hm]
  rw [e] at ib
  obtain ⟨_, rfl⟩ := ib
  refine Built.rebuild (fs := fs) (fa := fa) (fb := g) (fc := fc) (fe := fe) ⟨hok.length, hok.a, ?_, hok.c, hok.e, hok.sizeA,
    ?_, hok.sizeC, hok.sizeE, hok.crash⟩ i0 i2 i3 i4 ia hh ic ie hn hw ?_
  · exact ⟨moduleChain_typed mods, fun h => by cases h⟩
  · show (moduleChain mods).size ≤ _
    rw [moduleChain_size, weight_sized]; omega
  · refine hadds.perm ?_
    have := List.perm_append_comm (l₁ := fc ++ fe) (l₂ := g)
    simpa using (((this.append_left fa).append_left fs).cons p)

theorem koopsFirstModules_spec (A : Allocator) {text m₀ lost w st p m} (h : Reading text m₀ lost w st p m) {inp v}
    (hinp : inp.length ≤ text.length) (hv : Koops.firstModules st inp = .ok v) :
    match (generalizing := false) v with
    | none => koopsFirstModules A p inp m = .ok (false, inp, m)
    | some (mods, rest) => ∃ l, Koops.brokenModules inp = .ok l ∧ (koopsFirstModules A p inp m = .abort ∨
        ∃ m', koopsFirstModules A p inp m = .ok (true, rest, m') ∧ Reading text m₀ (lost ++ l) w { st with modules := some mods } p m') := by
  unfold koopsFirstModules
  unfold Koops.firstModules at hv
  obtain ⟨r, hr, hb⟩ := h.record
  simp only [readRecord, hr, bind_ok]
  cases hm : st.modules with
  | some ms =>
    rw [hm] at hv hb
    cases hv
    rw [if_pos fun e => by cases hb.1 e]
  | none =>
    rw [hm] at hv hb
    rw [if_neg (by simp)] at hv
    rw [if_neg fun e => e (hb.2 rfl)]
    have hs := koopsModules_spec A m hv
    cases v with
    | none =>
      dsimp only at hs ⊢
      rw [hs, bind_ok]
      simp only [hr, bind_ok, writeRecord]
      have hr' : { r with b := 0 } = r := by
        have := hb.2 rfl
        cases r
        cases this
        rfl
      rw [hr', set_same hr]
      rfl
    | some x =>
      obtain ⟨mods, rest⟩ := x
      dsimp only at hs ⊢
      obtain ⟨hlen, l, hl, hs⟩ := hs
      refine ⟨l, hl, ?_⟩
      rcases hs with e | ⟨m₁, q, m', g, e, hL, hA, hh⟩
      · rw [e]; exact .inl rfl
      obtain ⟨r', hr', hR⟩ := h.modules hm hL hA hh (by omega)
      rw [e, bind_ok]
      simp only [hr', bind_ok, writeRecord]
      refine .inr ⟨_, ?_, hR⟩
      rw [show (q != 0) = true by simpa using hh.ne (by cases mods <;> simp [moduleChain])]

theorem koopsMark_spec (A : Allocator) {text m₀ lost w st p m} (h : Reading text m₀ lost w st p m) {q m' f}
    (hf : Built .koopsFrame .null m m' q (koopsFramePart f)) (hn : f.specialStack = none) :
    koopsMark A w q ⟨m', none⟩ = .abort ∨
    ∃ m'', koopsMark A w q ⟨m', none⟩ = .ok ⟨m'', none⟩ ∧
      Built .koopsFrame .null m m'' q (koopsFramePart { f with specialStack := st.stack }) := by
  obtain ⟨m₁, m₂, h1, h2, h3⟩ := h
  unfold koopsMark
  cases hs : st.stack with
  | none =>
    rw [hs] at h2
    obtain ⟨rfl, rfl⟩ := h2
    rw [if_pos rfl]
    exact .inr ⟨m', rfl, by rw [← hn]; exact hf⟩
  | some l =>
    rw [hs] at h2
    obtain ⟨h0, h4, rfl⟩ := h2
    have e1 := h3.ext w (by rw [h4]; simp)
    have e2 := hf.ext w (by rw [e1, h4]; simp)
    rw [if_neg h0]
    dsimp only
    rw [e2, e1, h4]
    dsimp only
    rcases storeText_spec A hf .specialStack l none (by show some f.specialStack = _; rw [hn]) with e | ⟨m'', e, hb⟩
    · exact .inl e
    · exact .inr ⟨m'', e, hb⟩

theorem frame_noStack {inp f rest} (h : Koops.parseFrame inp = .ok (some (f, rest))) : f.specialStack = none := by
  obtain ⟨r, e, hr⟩ := Koops.frame_yields inp
  rw [h] at e
  cases e
  obtain ⟨u, _, hft⟩ := hr f rest rfl
  exact hft.noStack

theorem koopsChain_size (l : List KoopsFrame) : (chainsOf (l.map fun f => (koopsFramePart f).chain .koopsFrame 0)).size = l.length :=
  size_chains _ (fun _ => rfl) l

theorem koopsChain_typed (f : KoopsFrame) : ((koopsFramePart f).chain .koopsFrame 0).Typed [.koopsFrame] := by
  simp [Part.chain, Chain.Typed, koopsFramePart, texts, slots, MemberOk]

/-- What follows the label: a frame, or the rest of the line. -/
theorem koopsStore_spec (A : Allocator) {text m₀ lost w st p m} (h : Reading text m₀ lost w st p m)
    (hsz : st.frames.length + 1 < text.length + 3) {inp v} (hv : Koops.parseFrame inp = .ok v) :
    koopsStore A (text.length + 3) p w inp m = .abort ∨ match (generalizing := false) v with
    | none => ∀ c, skipCharCspan inp c!"\n" = .ok c → koopsStore A (text.length + 3) p w inp m = .ok (c.2, m)
    | some (f, rest) => ∃ m', koopsStore A (text.length + 3) p w inp m = .ok (rest, m') ∧
        Reading text m₀ lost w { st with frames := st.frames ++ [{ f with specialStack := st.stack }] } p m' := by
  unfold koopsStore
  have hF := koopsFrame_spec A (m := m) hv
  cases v with
  | none =>
    rcases frameMade_none hF with e | ⟨rest, e⟩
    · rw [e]; exact .inl rfl
    · refine .inr fun c hc => ?_
      rw [e, bind_ok]
      dsimp only
      rw [if_neg (by simp), hc]
      rfl
  | some r =>
    obtain ⟨f, rest⟩ := r
    rcases frameMade_some hF with e | ⟨q, m', e, hb⟩
    · rw [e]; exact .inl rfl
    rw [e, bind_ok]
    dsimp only
    rw [if_pos hb.ne]
    rcases koopsMark_spec A h hb (frame_noStack hv) with e | ⟨m'', e, hb'⟩
    · rw [e]; exact .inl rfl
    rw [e, bind_ok]
    obtain ⟨g, hh, hA⟩ := hb'.whole rfl
    obtain ⟨m₁, m₂, h1, h2, h3⟩ := h
    obtain ⟨m₃, e3, hb3⟩ := storeItem_spec (n := text.length + 3) (l := [.koopsFrame]) (s := .frames) h3 none hA hh (by simp [Part.chain]) (by
      rw [weight_sized]
      show 1 + (chainsOf _).size < _
      rw [koopsChain_size]
      show 1 + st.frames.length < _
      omega) (by rw [weight_sized]) rfl rfl (koopsChain_typed _) false (fun h => by cases h)
    simp only [Bool.false_eq_true, if_false] at e3 hb3
    rw [e3, bind_ok]
    refine .inr ⟨m₃, rfl, m₁, m₂, h1, h2, ?_⟩
    have : koopsSoFar text { st with frames := st.frames ++ [{ f with specialStack := st.stack }] }
        = { koopsSoFar text st with a := (koopsSoFar text st).a.append ((koopsFramePart { f with specialStack := st.stack }).chain .koopsFrame 0) } := by
      unfold koopsSoFar koopsTracePart
      dsimp only
      rw [List.map_append, chainsOf_append]
      simp [chainsOf, append_nil]
    rw [this]
    exact hb3

end Satyr.Heap
