import Verif.Heap.TextLemmas
import Verif.CStr.Exact
import Verif.Heap.JsonParts
/-!
# Reading stack traces from text: memory of Python frames
-/
namespace Satyr.Heap
open Satyr.CStr
open Satyr.Text
open Satyr.Frames
open Satyr.Json (Value)

theorem stripMember_spec (A : Allocator) {j m₀ m p x} (h : Built .pythonFrame j m₀ m p x) (t : Text) (str : Str) (err : Option Ptr)
    (ht : x.texts[(texts .pythonFrame).idxOf t]? = some (some str)) :
    stripMember A p t ⟨m, err⟩ = .abort ∨
    ∃ m', stripMember A p t ⟨m, err⟩ = .ok ((Python.stripSpecial str).1, ⟨m', err⟩) ∧
      Built .pythonFrame j m₀ m' p (x.put .pythonFrame t (Python.stripSpecial str).2) := by
  unfold stripMember Python.stripSpecial
  rw [memberText_spec h ht, bind_ok]
  split
  · rcases replaceText_spec A h t str str.dropLast.tail err ht with e | ⟨m', e, hb⟩
    · rw [e]; exact .inl rfl
    · rw [e]; exact .inr ⟨m', rfl, hb⟩
  · exact .inr ⟨m, rfl, by rw [put_same ht]; exact h⟩

theorem pythonName_spec (A : Allocator) {j m₀ m p} {file : Option Str} (h : Built .pythonFrame j m₀ m p { texts := [file, none, none] })
    {inp loc v} (err : Option Ptr) (hv : Python.functionNameL inp loc = .ok v) :
    Fills .pythonFrame j m₀ p err (v.map id fun x => ((x.1.1, x.2.1), { texts := [file, some x.1.2, none] })) (pythonName A p inp ⟨m, err⟩) := by
  unfold pythonName
  unfold Python.functionNameL at hv
  generalize skipString inp c!", in " = r at *
  obtain ⟨n, t⟩ := r
  dsimp only at hv ⊢
  by_cases hn : n = 0
  · rw [if_pos hn] at hv ⊢
    by_cases hp : peek t ≠ '\n'
    · rw [if_pos hp] at hv ⊢
      cases hv
      exact failWith_spec A h _ err
    · rw [if_neg hp] at hv ⊢
      cases hv
      rcases storeText_spec A h .functionName c!"syntax" err rfl with e | ⟨m', e, hb⟩
      · rw [e]; exact .inl rfl
      · rw [e]; exact .inr ⟨m', rfl, hb⟩
  · rw [if_neg hn] at hv ⊢
    obtain ⟨⟨name, t'⟩, h1, h2⟩ := bind_ok_iff.1 hv
    rcases parseMember_spec A h .functionName t c!"\n" err rfl h1 with e | e
    · rw [e]; exact .inl rfl
    · cases name with
      | none =>
        cases h2
        dsimp only at e
        rw [e, bind_ok]
        exact failWith_spec A h _ err
      | some name =>
        cases h2
        obtain ⟨m', e, hb⟩ := e
        rw [e, bind_ok]
        dsimp only
        rw [if_neg (by decide)]
        rcases stripMember_spec A hb .functionName name err rfl with e | ⟨m'', e, hb⟩
        · rw [e]; exact .inl rfl
        · rw [e]; exact .inr ⟨m'', rfl, hb⟩

theorem pythonSource_spec (A : Allocator) {j m₀ m p} {file name : Option Str} (h : Built .pythonFrame j m₀ m p { texts := [file, name, none] })
    {inp loc c t loc'} (err : Option Ptr) (hv : Python.sourceLineL inp loc = .ok (c, t, loc')) :
    pythonSource A p inp ⟨m, err⟩ = .abort ∨
    ∃ m', pythonSource A p inp ⟨m, err⟩ = .ok (t, ⟨m', err⟩) ∧ Built .pythonFrame j m₀ m' p { texts := [file, name, c] } := by
  unfold pythonSource
  unfold Python.sourceLineL at hv
  generalize skipString inp c!"    " = r at *
  obtain ⟨n, s⟩ := r
  dsimp only at hv ⊢
  by_cases hn : n = 4
  · rw [if_pos hn] at hv ⊢
    obtain ⟨⟨str, t'⟩, h1, h2⟩ := bind_ok_iff.1 hv
    rcases parseMember_spec A h .lineContents s c!"\n" err rfl h1 with e | e
    · rw [e]; exact .inl rfl
    · cases str with
      | none =>
        dsimp only at e h2
        rw [if_pos rfl] at h2
        cases h2
        rw [e, bind_ok]
        exact .inr ⟨m, rfl, h⟩
      | some str =>
        dsimp only at h2
        rw [if_neg (by simp)] at h2
        obtain ⟨⟨nl, t''⟩, h3, h4⟩ := bind_ok_iff.1 h2
        cases h4
        obtain ⟨m', e, hb⟩ := e
        rw [e, bind_ok]
        dsimp only
        rw [if_neg (by decide), h3, bind_ok]
        exact .inr ⟨m', rfl, hb⟩
  · rw [if_neg hn] at hv ⊢
    cases hv
    exact .inr ⟨m, rfl, h⟩

/-- What reading the members is to give. -/
def pythonBody (v : Str ⊕ (PythonFrame × Str × Loc)) : Str ⊕ (Str × Part) := v.map id fun x => (x.2.1, pythonFramePart x.1)

theorem pythonMembers_spec (A : Allocator) {j m₀ m p} (h : Built .pythonFrame j m₀ m p { texts := [none, none, none] })
    {inp loc v} (err : Option Ptr) (hn : (skipString inp c!"  File \"").1 ≠ 0) (hv : Python.frameBodyL inp loc = .ok v) :
    Fills .pythonFrame j m₀ p err (pythonBody v) (pythonMembers A p (skipString inp c!"  File \"").2 ⟨m, err⟩) := by
  unfold pythonMembers
  unfold Python.frameBodyL at hv
  generalize skipString inp c!"  File \"" = r at *
  obtain ⟨n, s⟩ := r
  dsimp only at hv hn ⊢
  rw [if_neg hn] at hv
  obtain ⟨⟨file, t⟩, h1, h2⟩ := bind_ok_iff.1 hv
  clear hv
  rcases parseMember_spec A h .fileName s c!"\"" err rfl h1 with e | e
  · rw [e]; exact .inl rfl
  cases file with
  | none =>
    cases h2
    dsimp only at e
    rw [e, bind_ok]
    exact failWith_spec A h _ err
  | some file =>
    obtain ⟨m', e, hb⟩ := e
    rw [e, bind_ok]
    clear e
    dsimp only at h2 ⊢
    rw [if_neg (by decide)]
    rcases stripMember_spec A hb .fileName file err rfl with e | ⟨m'', e, hb⟩
    · rw [e]; exact .inl rfl
    rw [e, bind_ok]
    dsimp only
    rcases anonymizeMember_spec A hb .fileName _ err rfl with e | ⟨m₃, e, hb⟩
    · rw [e]; exact .inl rfl
    rw [e, bind_ok]
    replace hb : Built .pythonFrame j m₀ m₃ p { texts := [some (anonymizePath (Python.stripSpecial file).2), none, none] } := hb
    clear e
    generalize skipString t c!"\", line " = r at *
    obtain ⟨n', t'⟩ := r
    dsimp only at h2 ⊢
    by_cases hn' : n' = 0
    · rw [if_pos hn'] at h2 ⊢
      cases h2
      exact failWith_spec A hb _ err
    rw [if_neg hn'] at h2 ⊢
    obtain ⟨⟨len, line, u⟩, h3, h4⟩ := bind_ok_iff.1 h2
    clear h2
    rw [h3, bind_ok]
    cases line with
    | none =>
      cases h4
      exact failWith_spec A hb _ err
    | some line =>
      dsimp only at h4 ⊢
      obtain ⟨w, h5, h6⟩ := bind_ok_iff.1 h4
      clear h4
      rcases pythonName_spec A hb err h5 with e | e
      · rw [e]; exact .inl rfl
      cases w with
      | inl msg =>
        cases h6
        obtain ⟨m₄, x, s', e, hb, hs⟩ := e
        rw [e, bind_ok]
        exact .inr ⟨m₄, x, s', rfl, hb, hs⟩
      | inr w =>
        obtain ⟨⟨special, name⟩, u', loc'⟩ := w
        obtain ⟨m₄, e, hb⟩ := e
        rw [e, bind_ok]
        clear e
        dsimp only at h6 ⊢
        obtain ⟨⟨nl, u₂⟩, h7, h8⟩ := bind_ok_iff.1 h6
        obtain ⟨⟨c, u₃, loc₃⟩, h9, h10⟩ := bind_ok_iff.1 h8
        cases h10
        rw [h7, bind_ok]
        dsimp only
        rcases pythonSource_spec A hb err h9 with e | ⟨m₅, e, hb⟩
        · rw [e]; exact .inl rfl
        rw [e, bind_ok]
        clear e
        obtain ⟨m₆, e, hb⟩ := storeData_spec hb [if (Python.stripSpecial file).1 = true then 1 else 0, if special = true then 1 else 0, (line : Int)] err
        dsimp only
        rw [e, bind_ok]
        refine .inr ⟨m₆, rfl, ?_⟩
        refine Eq.mp ?_ hb
        congr 1

theorem bind_assoc {α β γ : Type} (x : Out α) (f : α → Out β) (g : β → Out γ) : (x.bind f).bind g = x.bind fun a => (f a).bind g := by
  cases x <;> rfl

/-- Reading a frame: the rest of the text is right also when there is no frame. -/
theorem pythonFrame_spec (A : Allocator) {m inp loc rest loc'} {v : Str ⊕ PythonFrame} (err : Option Ptr)
    (hv : Python.parseFrameL inp loc = .ok (v, rest, loc')) :
    pythonFrame A inp ⟨m, err⟩ = .abort ∨
    match (generalizing := false) v with
    | .inl msg => ∃ s, pythonFrame A inp ⟨m, err⟩ = .ok (0, rest, s) ∧ Reported m err msg s
    | .inr f => ∃ p m', pythonFrame A inp ⟨m, err⟩ = .ok (p, rest, ⟨m', err⟩) ∧ Built .pythonFrame .null m m' p (pythonFramePart f) := by
  unfold pythonFrame
  unfold Python.parseFrameL at hv
  obtain ⟨s, h1, h2⟩ := bind_ok_iff.1 hv
  obtain ⟨w, h3, h4⟩ := bind_ok_iff.1 h2
  clear hv h2
  rw [h1, bind_ok]
  by_cases hn : (skipString s c!"  File \"").1 = 0
  · rw [if_pos hn]
    have hw : w = .inl c!"Frame header not found." := by
      unfold Python.frameBodyL at h3
      dsimp only at h3
      rw [if_pos hn] at h3
      cases h3; rfl
    subst hw
    cases h4
    rcases setError_spec A c!"Frame header not found." ⟨m, err⟩ with e | ⟨s', e, hs⟩
    · rw [e]; exact .inl rfl
    · rw [e]; exact .inr ⟨s', rfl, hs⟩
  · rw [if_neg hn]
    dsimp only
    rcases new_spec A .pythonFrame .null m with e | ⟨p, m', e, hb⟩
    · rw [e]; exact .inl rfl
    rw [e, bind_ok]
    dsimp only
    have hm := endFrame_spec (by decide) (pythonMembers_spec A hb err hn h3)
    rw [← bind_assoc]
    rcases hm with e | hm
    · rw [e]; exact .inl rfl
    cases w with
    | inl msg =>
      cases h4
      obtain ⟨_, s', e, hs⟩ := hm
      rw [e]
      exact .inr ⟨s', rfl, hs⟩
    | inr w =>
      obtain ⟨f, t, l⟩ := w
      cases h4
      obtain ⟨q, m₂, e, hs⟩ := hm
      rw [e, bind_ok]
      dsimp only
      rw [if_neg hs.ne]
      exact .inr ⟨q, m₂, rfl, hs⟩

end Satyr.Heap
