import Verif.Heap.JavaTextFrames
import Verif.Heap.KoopsTextModules
import Verif.Text.Java
/-!
# Reading Java stack traces from text: what is lost, and lists of frames
-/
namespace Satyr.Text.Java
open Satyr.CStr
open Satyr.Frames

/-! ## Specification: what is lost -/

/-- The frames before the line that is not a frame. -/
def callsBefore : Nat → Str → Out (List JavaFrame)
  | 0, _ => .ub
  | fuel + 1, s => do
    match ← parseFrame (skipWs s) with
    | none => .ok []
    | some (f, s) => do
      let l ← callsBefore fuel s
      .ok (f :: l)

/-- The frames that are not freed when the text of an exception cannot be read: for each exception, from the first in the text, those
that have been read. -/
def lostCalls : Nat → Str → Out (List (List JavaFrame))
  | 0, _ => .ub
  | fuel + 1, s => do
    match ← exceptionHead s with
    | none => .ok []
    | some (_, s) =>
      match ← framesLoop (s.length + 1) s [] with
      | none => do
        let l ← callsBefore (s.length + 1) s
        .ok [l]
      | some (frames, ending) =>
        match ← causedBy ending with
        | .inl _ => .ok []
        | .inr s => do
          let l ← lostCalls fuel s
          .ok (frames :: l)

/-! ## Lengths -/

theorem framesLoop_lengths : ∀ (fuel : Nat) (s : Str) (acc : List JavaFrame) {x}, framesLoop fuel s acc = .ok (some x) →
    x.1.length + x.2.rest.length ≤ acc.length + s.length
  | 0, _, _, _, h => by cases h
  | fuel + 1, s, acc, x, h => by
    rw [framesLoop] at h
    have hw := skipWs_len s
    split at h
    · cases h; exact Nat.le_refl _
    dsimp only at h
    split at h
    · cases h; dsimp only [Ending.rest]; omega
    split at h
    · cases h; dsimp only [Ending.rest]; omega
    obtain ⟨r, h1, h2⟩ := bind_ok_iff.1 h
    obtain ⟨r', e, hr⟩ := parseFrame_yields (skipWs s)
    rw [h1] at e
    cases e
    cases r with
    | none => cases h2
    | some y =>
      have := framesLoop_lengths fuel _ _ h2
      have h3 := hr y rfl
      simp only [List.length_append, List.length_cons, List.length_nil] at this
      omega

theorem parseException_more : ∀ (fuel : Nat) (s : Str) {x}, s.length < fuel → parseException fuel s = .ok (some x) → x.1.length ≤ s.length ∧ x.1 ≠ []
  | 0, _, _, _, h => by cases h
  | fuel + 1, s, x, hl, h => by
    rw [parseException] at h
    obtain ⟨r, h1, h2⟩ := bind_ok_iff.1 h
    obtain ⟨r', e, hr⟩ := exceptionHead_yields s
    rw [h1] at e
    cases e
    cases r with
    | none => cases h2
    | some y =>
      obtain ⟨exc, u⟩ := y
      have h0 := hr _ rfl
      dsimp only at h0 h2
      obtain ⟨r, h3, h4⟩ := bind_ok_iff.1 h2
      obtain ⟨r', e, hr'⟩ := framesLoop_yields (u.length + 1) u [] (by omega)
      rw [h3] at e
      cases e
      cases r with
      | none => cases h4
      | some z =>
        obtain ⟨frames, ending⟩ := z
        have h5 := framesLoop_lengths _ _ _ h3
        dsimp only [List.length_nil] at h5 h4
        obtain ⟨c, h6, h7⟩ := bind_ok_iff.1 h4
        obtain ⟨c', e, hc⟩ := causedBy_yields ending (hr' _ rfl).2
        rw [h6] at e
        cases e
        cases c with
        | inl t => cases h7; exact ⟨by simp only [List.length_cons]; omega, by simp⟩
        | inr t =>
          dsimp only at hc h7
          obtain ⟨i, h8, h9⟩ := bind_ok_iff.1 h7
          cases i with
          | none => cases h9
          | some i =>
            have := (parseException_more fuel t (by omega) h8).1
            cases h9
            exact ⟨by simp only [List.length_append, List.length_cons]; omega, by simp⟩

end Satyr.Text.Java

namespace Satyr.Heap
open Satyr.CStr
open Satyr.Text
open Satyr.Frames
open Satyr.Json (Value)

/-- The list of frames in memory. -/
def calls (l : List JavaFrame) : Chain := chainsOf (l.map fun f => (javaFramePart f).chain .javaFrame 0)

/-- Lists of frames in memory, one after the other. -/
def Keeps (m : Mem) : List (List JavaFrame) → List Ptr → Prop
  | [], f => f = []
  | l :: ls, f => ∃ p g h, Holds m (calls l) true p g ∧ Keeps m ls h ∧ f = g ++ h

theorem Keeps.congr {m m' : Mem} : ∀ {ls f}, Keeps m ls f → (∀ x ∈ f, m' x = m x) → Keeps m' ls f
  | [], _, h, _ => h
  | _ :: _, _, ⟨p, g, h, h1, h2, e⟩, hm => by
    subst e
    exact ⟨p, g, h, h1.congr fun x hx => hm x (by simp [hx]), h2.congr fun x hx => hm x (by simp [hx]), rfl⟩

theorem adds_same {m₀ m m' : Mem} {f : List Ptr} (h : Adds m₀ m f) (hk : ∀ x, x ∉ f → m' x = m x) (hu : ∀ x ∈ f, m' x ≠ none) : Adds m₀ m' f :=
  ⟨h.nodup, h.fresh, hu, fun x hx => by rw [hk x hx]; exact h.same x hx⟩

theorem calls_cons (f : JavaFrame) (l : List JavaFrame) : calls (f :: l) =
    .cons .javaFrame (javaFramePart f).data (javaFramePart f).texts 0 .nil .nil .nil .nil (calls l) := rfl

theorem calls_size (l : List JavaFrame) : (calls l).size = l.length := size_chains _ (fun _ => rfl) l

theorem calls_length : ∀ l : List JavaFrame, (calls l).length = l.length
  | [] => rfl
  | f :: l => by rw [calls_cons, Chain.length, calls_length l]; rfl

theorem calls_append (l l' : List JavaFrame) : (calls l).append (calls l') = calls (l ++ l') := by
  unfold calls
  rw [List.map_append, chainsOf_append]

theorem calls_ne {l : List JavaFrame} (h : l ≠ []) : calls l ≠ .nil := by
  cases l with
  | nil => exact absurd rfl h
  | cons f l => rw [calls_cons]; simp

/-- Freeing an exception frees one structure. The frames stay. -/
theorem freeException {m₀ m : Mem} {exc acc e f} (h : Holds m (calls (exc :: acc)) true e f) {k : List Ptr} (hA : Adds m₀ m (f ++ k)) :
    ∃ p g m', free 16 e false m = .ok m' ∧ Holds m' (calls acc) true p g ∧ Adds m₀ m' (g ++ k) ∧ ∀ x ∈ g ++ k, m' x = m x := by
  rw [calls_cons] at h
  obtain ⟨r, g, fn, h1, h0, hpg, hg, hn, rfl⟩ := h.split
  have hp : (g ++ fn ++ k).Perm ((fn ++ k) ++ g) := by
    rw [List.append_assoc]
    exact List.perm_append_comm
  have hA' := hA.perm hp
  have hd := List.nodup_append.1 hA'.nodup
  have hk : ∀ x ∈ fn ++ k, erase m g x = m x := fun x hx => if_neg fun hg => hd.2.2 x hx x hg rfl
  refine ⟨r.next, fn, erase m g, ?_, hn.congr fun x hx => hk x (by simp [hx]), (adds_split hA').1, hk⟩
  exact free_spec (.cons .javaFrame (javaFramePart exc).data (javaFramePart exc).texts 0 .nil .nil .nil .nil .nil) 16 false e g m [.javaFrame]
    (by simp [Chain.size]) ⟨by simp, rfl, trivial, rfl, rfl, rfl, rfl⟩ ⟨by simp, trivial⟩ hg hd.2.1

end Satyr.Heap
