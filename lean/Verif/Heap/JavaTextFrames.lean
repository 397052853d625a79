import Verif.Heap.JavaTextModel
import Verif.Heap.KoopsTextLemmas
/-!
# Reading Java stack traces from text: memory of frames
-/
namespace Satyr.Heap
open Satyr.CStr
open Satyr.Text
open Satyr.Frames
open Satyr.Json (Value)

theorem javaPathEnd {r q : Option Str × Str} (h : Java.pathEnd r = .ok q) : q.1 = r.1 ∧ ∀ o, Java.pathEnd (o, r.2) = .ok (o, q.2) := by
  unfold Java.pathEnd at h ⊢
  dsimp only
  split at h
  · rename_i hc
    obtain ⟨a, h1, h2⟩ := bind_ok_iff.1 h
    cases h2
    refine ⟨rfl, fun o => ?_⟩
    rw [if_pos hc, h1]
    rfl
  · rename_i hc
    cases h
    exact ⟨rfl, fun o => by rw [if_neg hc]⟩

theorem javaPath_spec (A : Allocator) {j m₀ m p x} (h : Built .javaFrame j m₀ m p x) {stop mark cursor v}
    (ht : x.texts[2]? = some none) (hv : Java.path stop mark cursor = .ok v) :
    javaPath A p stop mark cursor ⟨m, none⟩ = .abort ∨
    ∃ m', javaPath A p stop mark cursor ⟨m, none⟩ = .ok (v.2, ⟨m', none⟩) ∧ Built .javaFrame j m₀ m' p (x.may .javaFrame .classPath v.1) := by
  unfold javaPath
  unfold Java.path at hv
  obtain ⟨mark', h1, h2⟩ := bind_ok_iff.1 hv
  obtain ⟨⟨n, c⟩, h3, h4⟩ := bind_ok_iff.1 h2
  cases h4
  rw [h1, bind_ok, h3, bind_ok]
  dsimp only
  by_cases hn : n = 0
  · rw [if_pos hn, if_pos hn]
    exact .inr ⟨m, rfl, by rw [may_none ht]; exact h⟩
  rw [if_neg hn, if_neg hn]
  rcases storeText_spec A h .classPath (strndup mark' n) none ht with e | ⟨m', e, hb⟩
  · rw [e]; exact .inl rfl
  rw [e, bind_ok]
  rcases anonymizeMember_spec A hb .classPath (strndup mark' n) none (may_text (t := .classPath) ht _) with e | ⟨m₂, e, hb⟩
  · rw [e]; exact .inl rfl
  rw [e, bind_ok]
  refine .inr ⟨m₂, rfl, ?_⟩
  have := may_may x .javaFrame .classPath (some (strndup mark' n)) (some (anonymizePath (strndup mark' n)))
  rw [← this]
  exact hb

theorem javaUrl_spec (A : Allocator) {j m₀ m p x} (h : Built .javaFrame j m₀ m p x) {inp v}
    (ht : x.texts[2]? = some none) (hv : Java.frameUrl inp = .ok v) :
    javaUrl A p inp ⟨m, none⟩ = .abort ∨
    ∃ m', javaUrl A p inp ⟨m, none⟩ = .ok (v.2, ⟨m', none⟩) ∧ Built .javaFrame j m₀ m' p (x.may .javaFrame .classPath v.1) := by
  have hnone : ∀ u : Str, ∃ m', Out.ok (u, (⟨m, none⟩ : State)) = .ok (u, ⟨m', none⟩) ∧ Built .javaFrame j m₀ m' p (x.may .javaFrame .classPath none) :=
    fun u => ⟨m, rfl, by rw [may_none ht]; exact h⟩
  unfold javaUrl
  unfold Java.frameUrl at hv
  obtain ⟨⟨n, u⟩, h1, h2⟩ := bind_ok_iff.1 hv
  clear hv
  rw [h1, bind_ok]
  dsimp only at h2 ⊢
  by_cases hc : peek u ≠ '['
  · rw [if_pos hc] at h2 ⊢
    cases h2
    exact .inr (hnone _)
  rw [if_neg hc] at h2 ⊢
  obtain ⟨mark, h3, h4⟩ := bind_ok_iff.1 h2
  clear h2
  rw [h3, bind_ok]
  obtain ⟨⟨n', cur⟩, h5, h6⟩ := bind_ok_iff.1 h4
  clear h4
  rw [h5, bind_ok]
  dsimp only at h6 ⊢
  by_cases hc' : peek cur ≠ ':'
  · rw [if_pos hc'] at h6 ⊢
    obtain ⟨e1, e2⟩ := javaPathEnd h6
    rw [h6, bind_ok, e1]
    exact .inr (hnone _)
  rw [if_neg hc'] at h6 ⊢
  obtain ⟨r, h7, h8⟩ := bind_ok_iff.1 h6
  clear h6
  rw [h7, bind_ok]
  cases r with
  | inl c => cases h8; exact .inr (hnone _)
  | inr r =>
    obtain ⟨stop, mk, c⟩ := r
    dsimp only at h8 ⊢
    obtain ⟨r, h9, h10⟩ := bind_ok_iff.1 h8
    obtain ⟨e1, e2⟩ := javaPathEnd h10
    rcases javaPath_spec A h ht h9 with e | ⟨m', e, hb⟩
    · rw [e]; exact .inl rfl
    rw [e, bind_ok]
    dsimp only
    rw [e2 none, bind_ok, e1]
    exact .inr ⟨m', rfl, hb⟩

theorem javaSource_spec (A : Allocator) {j m₀ m p x} (h : Built .javaFrame j m₀ m p x) {inp v}
    (ht : x.texts[1]? = some none) (hv : Java.source inp = .ok v) :
    javaSource A p inp ⟨m, none⟩ = .abort ∨
    ∃ m', javaSource A p inp ⟨m, none⟩ = .ok (v.1, v.2.2.1, v.2.2.2, ⟨m', none⟩) ∧
      Built .javaFrame j m₀ m' p (x.may .javaFrame .fileName v.2.1) := by
  unfold javaSource
  unfold Java.source at hv
  by_cases hc : peek inp ≠ '('
  · rw [if_pos hc] at hv ⊢
    cases hv
    exact .inr ⟨m, rfl, by dsimp only; rw [may_none ht]; exact h⟩
  rw [if_neg hc] at hv ⊢
  obtain ⟨mark, h1, h2⟩ := bind_ok_iff.1 hv
  clear hv
  rw [h1, bind_ok]
  obtain ⟨⟨n, u⟩, h3, h4⟩ := bind_ok_iff.1 h2
  clear h2
  rw [h3, bind_ok]
  dsimp only at h4 ⊢
  obtain ⟨⟨line, u'⟩, h5, h6⟩ := bind_ok_iff.1 h4
  cases h6
  have key : ((if (n ≠ 0 && !startsWith mark Java.nativeMark && !startsWith mark Java.unknownMark) = true then
      (storeText A p .javaFrame .fileName (strndup mark n) ⟨m, none⟩).bind fun s => anonymizeMember A p .javaFrame .fileName s
    else .ok ⟨m, none⟩) = .abort) ∨ ∃ m', (if (n ≠ 0 && !startsWith mark Java.nativeMark && !startsWith mark Java.unknownMark) = true then
      (storeText A p .javaFrame .fileName (strndup mark n) ⟨m, none⟩).bind fun s => anonymizeMember A p .javaFrame .fileName s
    else .ok ⟨m, none⟩) = .ok ⟨m', none⟩ ∧ Built .javaFrame j m₀ m' p (x.may .javaFrame .fileName
      (if (n ≠ 0 && !startsWith mark Java.nativeMark && !startsWith mark Java.unknownMark) = true then some (anonymizePath (strndup mark n)) else none)) := by
    split
    · rcases storeText_spec A h .fileName (strndup mark n) none ht with e | ⟨m', e, hb⟩
      · rw [e]; exact .inl rfl
      rw [e, bind_ok]
      rcases anonymizeMember_spec A hb .fileName (strndup mark n) none (may_text (t := .fileName) ht _) with e | ⟨m₂, e, hb⟩
      · exact .inl e
      refine .inr ⟨m₂, e, ?_⟩
      have := may_may x .javaFrame .fileName (some (strndup mark n)) (some (anonymizePath (strndup mark n)))
      rw [← this]
      exact hb
    · exact .inr ⟨m, rfl, by rw [may_none ht]; exact h⟩
  rcases key with e | ⟨m', e, hb⟩
  · rw [e]; exact .inl rfl
  rw [e, bind_ok, h5, bind_ok]
  exact .inr ⟨m', rfl, hb⟩

theorem javaFrame_spec (A : Allocator) {m inp v} (hv : Java.parseFrame inp = .ok v) :
    javaFrame A inp ⟨m, none⟩ = .abort ∨ match (generalizing := false) v with
    | none => javaFrame A inp ⟨m, none⟩ = .ok (0, inp, ⟨m, none⟩)
    | some (f, rest) => ∃ p m', javaFrame A inp ⟨m, none⟩ = .ok (p, rest, ⟨m', none⟩) ∧ Built .javaFrame .null m m' p (javaFramePart f) := by
  unfold javaFrame
  unfold Java.parseFrame at hv
  cases hc : (strstrLocation inp c!"at").1 with
  | none =>
    rw [hc] at hv
    cases hv
    exact .inr rfl
  | some cursor =>
    rw [hc] at hv
    dsimp only at hv ⊢
    obtain ⟨⟨n, u⟩, h1, h2⟩ := bind_ok_iff.1 hv
    clear hv
    rw [h1, bind_ok]
    dsimp only at h2 ⊢
    obtain ⟨⟨native, file, line, u1⟩, h3, h4⟩ := bind_ok_iff.1 h2
    clear h2
    obtain ⟨⟨path, u2⟩, h5, h6⟩ := bind_ok_iff.1 h4
    clear h4
    obtain ⟨rest, h7, h8⟩ := bind_ok_iff.1 h6
    cases h8
    rcases new_spec A .javaFrame .null m with e | ⟨p, m', e, hb⟩
    · rw [e]; exact .inl rfl
    rw [e, bind_ok]
    dsimp only
    have key : (if n ≠ 0 then storeText A p .javaFrame .name (strndup (skipWs (cursor.drop 2)) n) ⟨m', none⟩ else .ok ⟨m', none⟩) = .abort ∨
        ∃ m₂, (if n ≠ 0 then storeText A p .javaFrame .name (strndup (skipWs (cursor.drop 2)) n) ⟨m', none⟩ else .ok ⟨m', none⟩) = .ok ⟨m₂, none⟩ ∧
          Built .javaFrame .null m m₂ p { texts := [if n = 0 then none else some (strndup (skipWs (cursor.drop 2)) n), none, none, none] } := by
      by_cases hn : n = 0
      · rw [if_neg (by simpa using hn), if_pos hn]
        exact .inr ⟨m', rfl, hb⟩
      · rw [if_pos hn, if_neg hn]
        rcases storeText_spec A hb .name (strndup (skipWs (cursor.drop 2)) n) none rfl with e | ⟨m₂, e, hb⟩
        · exact .inl e
        · exact .inr ⟨m₂, e, hb⟩
    rcases key with e | ⟨m₂, e, hb2⟩
    · rw [e]; exact .inl rfl
    rw [e, bind_ok]
    rcases javaSource_spec A hb2 rfl h3 with e | ⟨m₃, e, hb3⟩
    · rw [e]; exact .inl rfl
    rw [e, bind_ok]
    dsimp only
    rcases javaUrl_spec A hb3 rfl h5 with e | ⟨m₄, e, hb4⟩
    · rw [e]; exact .inl rfl
    rw [e, bind_ok]
    dsimp only
    rw [h7, bind_ok]
    obtain ⟨m₅, e, hb5⟩ := storeData_spec hb4 [(line : Int), if native then 1 else 0, 0] none
    rw [e, bind_ok]
    exact .inr ⟨p, m₅, rfl, hb5⟩

theorem javaHead_spec (A : Allocator) {m inp v} (hv : Java.exceptionHead inp = .ok v) :
    javaHead A inp ⟨m, none⟩ = .abort ∨ match (generalizing := false) v with
    | none => ∃ u, javaHead A inp ⟨m, none⟩ = .ok (0, u, ⟨m, none⟩)
    | some (f, rest) => ∃ p m', javaHead A inp ⟨m, none⟩ = .ok (p, rest, ⟨m', none⟩) ∧ Built .javaFrame .null m m' p (javaFramePart f) := by
  unfold javaHead
  unfold Java.exceptionHead at hv
  obtain ⟨⟨n, u⟩, h1, h2⟩ := bind_ok_iff.1 hv
  clear hv
  rw [h1, bind_ok]
  dsimp only at h2 ⊢
  by_cases hn : n = 0
  · rw [if_pos hn] at h2 ⊢
    cases h2
    exact .inr ⟨u, rfl⟩
  rw [if_neg hn] at h2 ⊢
  obtain ⟨⟨msg, u1⟩, h3, h4⟩ := bind_ok_iff.1 h2
  clear h2
  obtain ⟨u2, h5, h6⟩ := bind_ok_iff.1 h4
  cases h6
  rcases new_spec A .javaFrame .null m with e | ⟨p, m', e, hb⟩
  · rw [e]; exact .inl rfl
  rw [e, bind_ok]
  dsimp only
  obtain ⟨m₂, e, hb2⟩ := storeData_spec hb [0, 0, 1] none
  rw [e, bind_ok]
  rcases storeText_spec A hb2 .name (strndup (skipWs inp) n) none rfl with e | ⟨m₃, e, hb3⟩
  · rw [e]; exact .inl rfl
  rw [e, bind_ok]
  have key : javaMessage A p u ⟨m₃, none⟩ = .abort ∨ ∃ m₄, javaMessage A p u ⟨m₃, none⟩ = .ok (u1, ⟨m₄, none⟩) ∧
      Built .javaFrame .null m m₄ p { data := [0, 0, 1], texts := [some (strndup (skipWs inp) n), none, none, msg] } := by
    unfold javaMessage
    unfold Java.message at h3
    by_cases hc : peek u = ':'
    · rw [if_pos hc] at h3 ⊢
      obtain ⟨mark, h7, h8⟩ := bind_ok_iff.1 h3
      rw [h7, bind_ok]
      obtain ⟨⟨k, u3⟩, h9, h10⟩ := bind_ok_iff.1 h8
      cases h10
      rw [h9, bind_ok]
      dsimp only
      by_cases hk : k ≠ 0
      · rw [if_pos hk, if_pos hk]
        rcases storeText_spec A hb3 .message (strndup (skipWs mark) k) none rfl with e | ⟨m₄, e, hb4⟩
        · rw [e]; exact .inl rfl
        rw [e, bind_ok]
        exact .inr ⟨m₄, rfl, hb4⟩
      · rw [if_neg hk, if_neg hk]
        exact .inr ⟨m₃, rfl, hb3⟩
    · rw [if_neg hc] at h3 ⊢
      obtain ⟨⟨k, u3⟩, h9, h10⟩ := bind_ok_iff.1 h3
      cases h10
      rw [h9, bind_ok]
      exact .inr ⟨m₃, rfl, hb3⟩
  rcases key with e | ⟨m₄, e, hb4⟩
  · rw [e]; exact .inl rfl
  rw [e, bind_ok]
  dsimp only
  rw [h5, bind_ok]
  exact .inr ⟨p, m₄, rfl, hb4⟩

end Satyr.Heap
