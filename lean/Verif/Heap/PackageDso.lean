import Verif.Heap.PackageUniq
import Verif.Heap.GdbTextFrames
import Verif.Heap.TextTracePython
import Verif.Heap.ReportJsonLemmas
import Verif.Heap.Props
/-!
# Packages read from text
-/
namespace Satyr.Heap
open Satyr.CStr
open Satyr.Rpm (Package)

theorem putMember_spec (A : Allocator) {m₀ m p x} (h : Built .package .null m₀ m p x) (t : Text) (s : Str)
    (ht : x.texts[(texts .package).idxOf t]? = some none) :
    putMember A t s p m = .abort ∨ ∃ m', putMember A t s p m = .ok m' ∧ Built .package .null m₀ m' p (x.put .package t s) := by
  rw [putMember]
  rcases storeText_spec A h t s none ht with e | ⟨m', e, hb⟩
  · rw [e]; exact .inl rfl
  · rw [e]; exact .inr ⟨m', rfl, hb⟩

theorem readEpoch_spec (A : Allocator) (s : Str) (m : Mem) : readEpoch A s m = .abort ∨ readEpoch A s m = .ok (Rpm.parseEpoch s, m) := by
  rw [readEpoch]
  rcases newText A s m with e | ⟨q, m', e, hq⟩
  · rw [e]; exact .inl rfl
  · rw [e, bind_ok]
    dsimp only
    rw [readText_spec hq, bind_ok, freeBlock_text hq, bind_ok]
    exact .inr rfl

/-- A package of which nothing is known. -/
def blank : Part := { texts := [none, none, none, none] }

/-- The members read. -/
def named (name version release architecture : Str) : Part := { texts := [some name, some version, some release, some architecture] }

/-- What reading the members comes to. -/
def NevraOut (m₀ m : Mem) (p : Ptr) (v : Rpm.Nevra) (o : Out (Option Nat × Mem)) : Prop :=
  o = .abort ∨ match v with
  | .ok name e version release architecture => ∃ m', o = .ok (some e, m') ∧ Built .package .null m₀ m' p (named name version release architecture)
  | .fail => o = .ok (none, m)
  | .failDangling => True

theorem nevra_spec (A : Allocator) (text : Str) {m₀ m : Mem} {p : Ptr} (h : Built .package .null m₀ m p blank) :
    NevraOut m₀ m p (Rpm.parseNevra text) (nevra A text p m) := by
  have three : ∀ (a r v : Str) (k : Mem → Out (Option Nat × Mem)) (w : Rpm.Nevra),
      (∀ m', Built .package .null m₀ m' p { texts := [none, some v, some r, some a] } → NevraOut m₀ m p w (k m')) →
      NevraOut m₀ m p w ((putMember A .architecture a p m).bind fun m => (putMember A .release r p m).bind fun m =>
        (putMember A .version v p m).bind fun m => k m) := by
    intro a r v k w hk
    rcases putMember_spec A h .architecture a rfl with e | ⟨m₁, e, h1⟩
    · rw [e]; exact .inl rfl
    rw [e, bind_ok]
    rcases putMember_spec A h1 .release r rfl with e | ⟨m₂, e, h2⟩
    · rw [e]; exact .inl rfl
    rw [e, bind_ok]
    rcases putMember_spec A h2 .version v rfl with e | ⟨m₃, e, h3⟩
    · rw [e]; exact .inl rfl
    rw [e, bind_ok]
    exact hk m₃ h3
  have last : ∀ (n v r a : Str) (e : Nat) (m' : Mem), Built .package .null m₀ m' p { texts := [none, some v, some r, some a] } →
      NevraOut m₀ m p (.ok n e v r a) ((putMember A .name n p m').bind fun m => .ok (some e, m)) := by
    intro n v r a e m' h'
    rcases putMember_spec A h' .name n rfl with e | ⟨m₁, e, h1⟩
    · rw [e]; exact .inl rfl
    rw [e, bind_ok]
    exact .inr ⟨m₁, rfl, h1⟩
  rw [nevra, Rpm.parseNevra]
  cases strrchrI '.' text with
  | none => exact .inr rfl
  | some lastDot =>
  cases strrchrI '-' text with
  | none => exact .inr rfl
  | some lastDash =>
  dsimp only
  split
  · exact .inr rfl
  split
  · exact .inr rfl
  cases Rpm.findColon text (Rpm.backToDash text lastDash) lastDash with
  | none => exact three _ _ _ _ _ fun m' h' => last _ _ _ _ _ m' h'
  | some colon =>
    dsimp only
    split
    · exact .inr rfl
    refine three _ _ _ _ _ fun m' h' => ?_
    rcases readEpoch_spec A (strndup (text.drop (Rpm.backToDash text lastDash + 1)) (colon - Rpm.backToDash text lastDash - 1)) m' with e | e
    · rw [e]; exact .inl rfl
    rw [e, bind_ok]
    dsimp only
    cases Rpm.parseEpoch (strndup (text.drop (Rpm.backToDash text lastDash + 1)) (colon - Rpm.backToDash text lastDash - 1)) with
    | none => exact .inr trivial
    | some e => exact last _ _ _ _ _ m' h'

theorem dsoPackage_spec (A : Allocator) (text : Str) (m : Mem) : dsoPackage A text m = .abort ∨ match Rpm.parseNevra text with
    | .ok name e version release architecture => ∃ p m', dsoPackage A text m = .ok (some (p, e), m') ∧
        Built .package .null m m' p (named name version release architecture)
    | .fail => dsoPackage A text m = .ok (none, m)
    | .failDangling => True := by
  rw [dsoPackage]
  rcases newText A text m with e | ⟨copy, m₁, e, hq⟩
  · rw [e]; exact .inl rfl
  rw [e, bind_ok]
  dsimp only
  rcases new_spec A .package .null m₁ with e | ⟨p, m₂, e, hb⟩
  · rw [e]; exact .inl rfl
  rw [e, bind_ok]
  dsimp only
  obtain ⟨q0, q1, rfl⟩ := hq
  have text_at : ∀ {m' x}, Built .package .null (m.set copy (some (.text text))) m' p x → m' copy = some (.text text) := fun hb => by
    rw [hb.ext copy (by rw [set_eq]; simp), set_eq]
  rw [show readText m₂ copy = .ok text by rw [readText, text_at hb], bind_ok]
  have hfree : ∀ {m' x}, Built .package .null (m.set copy (some (.text text))) m' p x → freeBlock m' copy = .ok (erase m' [copy]) := fun hb =>
    freeBlock_spec q0 (by rw [text_at hb]; simp)
  rcases nevra_spec A text hb with e | hn
  · rw [e]; exact .inl rfl
  cases hv : Rpm.parseNevra text with
  | failDangling => exact .inr trivial
  | fail =>
    rw [hv] at hn
    dsimp only at hn
    rw [hn, bind_ok]
    dsimp only
    rw [hfree hb, bind_ok, (hb.without q1).release (by decide) (by decide), bind_ok]
    exact .inr rfl
  | ok name e version release architecture =>
    rw [hv] at hn
    obtain ⟨m₃, hn, hb⟩ := hn
    rw [hn, bind_ok]
    dsimp only
    rw [hfree hb, bind_ok]
    exact .inr ⟨p, _, rfl, hb.without q1⟩

theorem dsoTime_spec (A : Allocator) (line : Str) (m : Mem) : dsoTime A line m = .abort ∨ match strrchrI ' ' line with
    | none => dsoTime A line m = .ok (none, m)
    | some sp => ∀ t, parseUint64 (line.drop (sp + 1)) = .ok t → dsoTime A line m = .ok (if t.1 = 0 then none else some (t.2.1.getD 0), m) := by
  rw [dsoTime]
  rcases newText A line m with e | ⟨copy, m₁, e, hq⟩
  · rw [e]; exact .inl rfl
  rw [e, bind_ok]
  dsimp only
  rw [readText_spec hq, bind_ok]
  cases strrchrI ' ' line with
  | none =>
    dsimp only
    rw [freeBlock_text hq, bind_ok]
    exact .inr rfl
  | some sp =>
    refine .inr fun t ht => ?_
    dsimp only
    rw [ht, bind_ok, freeBlock_text hq, bind_ok]

/-- Memory `m` is memory `m₀` with the list of packages in addition. -/
def Packages (m₀ m : Mem) (l : List Package) (p : Ptr) : Prop := ∃ f, Holds m (packageChain l) true p f ∧ Adds m₀ m f

theorem Packages.add {m₀ m m' : Mem} {l : List Package} {p q : Ptr} {x : Package} {n : Nat} (h : Packages m₀ m l p)
    (hb : Built .package .null m m' q (packagePart x)) (hn : l.length ≤ n) :
    ∃ r m₂, append n p q m' = .ok (r, m₂) ∧ Packages m₀ m₂ (l ++ [x]) r := by
  obtain ⟨f, h1, h2⟩ := h
  obtain ⟨r, g, k1, k2, k3, k4⟩ := hb.holds
  rw [k2] at k3
  have hA := h2.trans k4
  obtain ⟨r', m₂, e1, e2, e3, _⟩ := C101_append_partial n p q f g m' (packageChain l) ((packagePart x).chain .package 0)
    (by rw [(packageChain_spec l).2]; exact hn) (h1.ext k4.ext) k3 hA.nodup
  have hc : packageChain (l ++ [x]) = (packageChain l).append ((packagePart x).chain .package 0) := by
    unfold packageChain
    rw [List.map_append, chainsOf_append]
    rfl
  refine ⟨r', m₂, e1, f ++ g, by rw [hc]; exact e2, adds_same hA (fun y hy => e3 y fun hf => hy (by simp [hf])) fun y hy => ?_⟩
  exact e2.used y hy

theorem dsoList_spec (A : Allocator) {n : Nat} {m₀ : Mem} : ∀ (fuel : Nat) (pos : Str) (acc l : List Package) (p : Ptr) (m : Mem),
    acc.length + fuel ≤ n → Rpm.dsoLoop fuel pos = .ok l → Packages m₀ m acc p →
    dsoList A n fuel pos p m = .abort ∨ ∃ q m', dsoList A n fuel pos p m = .ok (q, m') ∧ Packages m₀ m' (acc ++ l) q := by
  intro fuel
  induction fuel with
  | zero =>
    intro pos acc l p m _ hl h
    cases hl
    exact .inr ⟨p, m, rfl, by simpa using h⟩
  | succ fuel ih =>
    intro pos acc l p m hn hl h
    rw [Rpm.dsoLoop] at hl
    rw [dsoList]
    by_cases c : pos = []
    · rw [if_pos c] at hl ⊢
      cases hl
      exact .inr ⟨p, m, rfl, by simpa using h⟩
    rw [if_neg c] at hl ⊢
    cases h1 : strchrI ' ' pos with
    | none =>
      rw [h1] at hl
      cases hl
      exact .inr ⟨p, m, rfl, by simpa using h⟩
    | some i =>
    rw [h1] at hl
    dsimp only at hl ⊢
    generalize pos.drop (i + 1) = pos at *
    cases h2 : strchrI ' ' pos with
    | none =>
      rw [h2] at hl
      exact ih _ acc l p m (by omega) hl h
    | some e =>
    rw [h2] at hl
    dsimp only at hl ⊢
    by_cases c2 : e ≤ 1
    · rw [if_pos c2] at hl ⊢
      exact ih _ acc l p m (by omega) hl h
    rw [if_neg c2] at hl ⊢
    rcases dsoPackage_spec A (strndup pos e) m with a | hd
    · rw [a]; exact .inl rfl
    cases h3 : Rpm.parseNevra (strndup pos e) with
    | failDangling => rw [h3] at hl; cases hl
    | fail =>
      rw [h3] at hl hd
      dsimp only at hl hd
      rw [hd, bind_ok]
      exact ih _ acc l p m (by omega) hl h
    | ok name epoch version release architecture =>
    rw [h3] at hl hd
    dsimp only at hl
    obtain ⟨q, m₁, hd, hb⟩ := hd
    rw [hd, bind_ok]
    dsimp only
    have hrel : Heap.free 16 q true m₁ = .ok m := hb.release (by decide) (show (1 + 0 + 0 + 0 + 0 + 0 : Nat) < 16 by omega) true
    cases h4 : strchrI '\n' pos with
    | none =>
      rw [h4] at hl
      cases hl
      dsimp only
      rw [hrel, bind_ok]
      exact .inr ⟨p, m, rfl, by simpa using h⟩
    | some eol =>
    rw [h4] at hl
    dsimp only at hl ⊢
    rcases dsoTime_spec A (strndup pos eol) m₁ with a | ht
    · rw [a]; exact .inl rfl
    cases h5 : strrchrI ' ' (strndup pos eol) with
    | none =>
      rw [h5] at hl ht
      dsimp only at hl ht
      rw [ht, bind_ok]
      dsimp only
      rw [hrel, bind_ok]
      exact ih _ acc l p m (by omega) hl h
    | some sp =>
    rw [h5] at hl ht
    dsimp only at hl ht
    obtain ⟨t, h6, hl⟩ := bind_ok_iff.1 hl
    rw [ht t h6, bind_ok]
    obtain ⟨len, time, rest⟩ := t
    dsimp only at hl ⊢
    by_cases c3 : len = 0
    · rw [if_pos c3] at hl ⊢
      dsimp only
      rw [hrel, bind_ok]
      exact ih _ acc l p m (by omega) hl h
    rw [if_neg c3] at hl ⊢
    dsimp only
    obtain ⟨l', h7, hl⟩ := bind_ok_iff.1 hl
    cases hl
    obtain ⟨m₂, e2, hb⟩ := setData_spec hb [(epoch : Int), ((time.getD 0 : Nat) : Int), 0]
    rw [e2, bind_ok]
    obtain ⟨r, m₃, e3, h8⟩ := h.add (x := { name := some name, epoch, version := some version, release := some release,
                                             architecture := some architecture, installTime := time.getD 0 }) (n := n) hb (by omega)
    rw [e3, bind_ok]
    dsimp only
    rcases ih (Rpm.toNewline pos) _ l' r m₃ (by simp; omega) h7 h8 with a | ⟨z, m₄, a, h9⟩
    · exact .inl a
    · exact .inr ⟨z, m₄, a, by simpa using h9⟩

end Satyr.Heap
