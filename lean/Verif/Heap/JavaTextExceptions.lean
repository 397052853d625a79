import Verif.Heap.JavaTextLemmas
/-!
# Reading Java stack traces from text: memory of exceptions and threads
-/
namespace Satyr.Heap
open Satyr.CStr
open Satyr.Text
open Satyr.Frames
open Satyr.Json (Value)

/-- One more frame. -/
theorem javaLink_spec {m₀ m m' : Mem} {exc acc e f last q g} {y : JavaFrame} (h : Holds m (calls (exc :: acc)) true e f) (hA : Adds m₀ m f)
    (hl : acc ≠ [] → nth m e acc.length = last) (hq : Holds m' (calls [y]) true q g) (hA' : Adds m m' g) :
    ∃ m₂ f', javaLink e last q m' = .ok m₂ ∧ Holds m₂ (calls (exc :: (acc ++ [y]))) true e f' ∧ Adds m₀ m₂ f' ∧ nth m₂ e (acc.length + 1) = q := by
  have hh := h.ext hA'.ext
  have hAA := hA.trans hA'
  have hne : calls (exc :: acc) ≠ .nil := calls_ne (by simp)
  have hsz : (calls (exc :: acc)).size ≤ acc.length + 1 := by rw [calls_size]; simp
  obtain ⟨m₂, e1, e2, e3⟩ := appendLoop_spec hne hsz hh hq hAA.nodup
  have hn := (appendLoop_nth hne hsz hh hq hAA.nodup e1).2
  rw [calls_length] at hn
  have hcalls : (calls (exc :: acc)).append (calls [y]) = calls (exc :: (acc ++ [y])) := by rw [calls_append]; rfl
  rw [hcalls] at e2
  refine ⟨m₂, f ++ g, ?_, e2, adds_same hAA (fun x hx => e3 x fun hf => hx (by simp [hf])) e2.used, hn⟩
  rw [← e1]
  obtain ⟨r, g', fn, h1, h0, hpg, hg, hnx, rfl⟩ := Holds.split (by rw [← calls_cons]; exact hh)
  unfold javaLink
  rw [readRecord, h1]
  dsimp only
  rw [bind_ok]
  cases acc with
  | nil =>
    obtain ⟨hr, _⟩ := hnx
    rw [if_pos hr, List.length_nil, appendLoop, readRecord, h1]
    dsimp only
    rw [bind_ok, if_neg (by simp [hr])]
  | cons a acc =>
    rw [if_neg (hnx.ne (calls_ne (by simp))), appendLoop_last hne hsz hh, calls_length]
    have := (nth_congr h (m' := m') (i := (a :: acc).length) (fun x hx => hA'.ext x (h.used x hx)) (by rw [calls_length]; simp)).1
    rw [show (exc :: a :: acc).length - 1 = (a :: acc).length from rfl, this, hl (by simp)]

theorem javaFrames_spec (A : Allocator) {m₀ : Mem} {exc e} : ∀ (fuel : Nat) (s : Str) (acc : List JavaFrame) (last : Ptr) (m : Mem) (f : List Ptr) {v},
    Holds m (calls (exc :: acc)) true e f → Adds m₀ m f → (acc ≠ [] → nth m e acc.length = last) → Java.framesLoop fuel s acc = .ok v →
    match (generalizing := false) v with
    | some (frames, ending) => javaFrames A e fuel last s m = .abort ∨
      ∃ m' f', javaFrames A e fuel last s m = .ok (some ending, m') ∧ Holds m' (calls (exc :: frames)) true e f' ∧ Adds m₀ m' f'
    | none => ∃ l, Java.callsBefore fuel s = .ok l ∧ (javaFrames A e fuel last s m = .abort ∨
      ∃ m' p g, javaFrames A e fuel last s m = .ok (none, m') ∧ Holds m' (calls (acc ++ l)) true p g ∧ Adds m₀ m' g)
  | 0, _, _, _, _, _, _, _, _, _, hv => by cases hv
  | fuel + 1, s, acc, last, m, f, v, h, hA, hl, hv => by
    rw [Java.framesLoop] at hv
    rw [javaFrames]
    by_cases c1 : peek s = '\x00'
    · rw [if_pos c1] at hv ⊢
      cases hv
      exact .inr ⟨m, f, rfl, h, hA⟩
    rw [if_neg c1] at hv ⊢
    dsimp only at hv
    by_cases c2 : startsWith (skipWs s) c!"... " = true ∨ startsWith (skipWs s) c!"Suppressed: " = true
    · rw [if_pos c2] at hv ⊢
      cases hv
      exact .inr ⟨m, f, rfl, h, hA⟩
    rw [if_neg c2] at hv ⊢
    by_cases c3 : startsWith (skipWs s) c!"Caused by: " = true
    · rw [if_pos c3] at hv ⊢
      cases hv
      exact .inr ⟨m, f, rfl, h, hA⟩
    rw [if_neg c3] at hv ⊢
    obtain ⟨r, h1, h2⟩ := bind_ok_iff.1 hv
    clear hv
    have hf := javaFrame_spec A (m := m) h1
    cases r with
    | none =>
      dsimp only at h2 hf
      cases h2
      dsimp only
      refine ⟨[], by rw [Java.callsBefore, h1]; rfl, ?_⟩
      rcases hf with e' | e'
      · rw [e']; exact .inl rfl
      rw [e', bind_ok]
      dsimp only
      rw [if_pos rfl]
      obtain ⟨p, g, m', e1, e2, e3, _⟩ := freeException h (k := []) (by rw [List.append_nil]; exact hA)
      rw [e1, bind_ok]
      rw [List.append_nil] at e3
      exact .inr ⟨m', p, g, rfl, by rw [List.append_nil]; exact e2, e3⟩
    | some x =>
      obtain ⟨y, u⟩ := x
      dsimp only at h2 hf
      have step : javaFrame A (skipWs s) ⟨m, none⟩ = .abort ∨ ∃ q m' m₂ f', javaFrame A (skipWs s) ⟨m, none⟩ = .ok (q, u, ⟨m', none⟩) ∧ q ≠ 0 ∧
          javaLink e last q m' = .ok m₂ ∧ Holds m₂ (calls (exc :: (acc ++ [y]))) true e f' ∧ Adds m₀ m₂ f' ∧ nth m₂ e (acc.length + 1) = q := by
        rcases hf with e' | ⟨q, m', e', hb⟩
        · exact .inl e'
        obtain ⟨g, hq, hA'⟩ := hb.whole rfl
        have hq' : Holds m' (calls [y]) true q g := hq
        obtain ⟨m₂, f', e1, e2, e3, e4⟩ := javaLink_spec h hA hl hq' hA'
        exact .inr ⟨q, m', m₂, f', e', hq.ne (by simp [Part.chain]), e1, e2, e3, e4⟩
      have hcb : ∀ l, Java.callsBefore fuel u = .ok l → Java.callsBefore (fuel + 1) s = .ok (y :: l) := fun l hl => by
        rw [Java.callsBefore, h1, Out.bind_ok]
        dsimp only
        rw [hl]
        rfl
      rcases step with e' | ⟨q, m', m₂, f', e', hq, e1, e2, e3, e4⟩
      · rw [e']
        cases v with
        | some v => exact .inl rfl
        | none =>
          dsimp only
          have : ∃ l, Java.callsBefore fuel u = .ok l := callsBefore_of fuel u _ h2
          obtain ⟨l, hl⟩ := this
          exact ⟨_, hcb l hl, .inl rfl⟩
      · rw [e', bind_ok]
        dsimp only
        rw [if_neg hq, e1, bind_ok]
        have ih := javaFrames_spec A fuel u (acc ++ [y]) q m₂ f' e2 e3 (fun _ => by rw [List.length_append]; exact e4) h2
        cases v with
        | some v => exact ih
        | none =>
          dsimp only at ih ⊢
          obtain ⟨l, hl, ih⟩ := ih
          refine ⟨_, hcb l hl, ?_⟩
          rw [show acc ++ y :: l = acc ++ [y] ++ l by simp]
          exact ih
where
  callsBefore_of : ∀ (fuel : Nat) (u : Str) (acc : List JavaFrame), Java.framesLoop fuel u acc = .ok none → ∃ l, Java.callsBefore fuel u = .ok l
    | 0, _, _, h => by cases h
    | fuel + 1, u, acc, h => by
      rw [Java.framesLoop] at h
      split at h
      · cases h
      dsimp only at h
      split at h
      · cases h
      split at h
      · cases h
      obtain ⟨r, h1, h2⟩ := bind_ok_iff.1 h
      rw [Java.callsBefore, h1, Out.bind_ok]
      cases r with
      | none => exact ⟨[], rfl⟩
      | some x =>
        obtain ⟨l, hl⟩ := callsBefore_of fuel _ _ h2
        dsimp only
        rw [hl]
        exact ⟨_, rfl⟩

end Satyr.Heap

namespace Satyr.Heap
open Satyr.CStr
open Satyr.Text
open Satyr.Frames
open Satyr.Json (Value)

/-- The messages when an exception cannot be read. -/
def exceptionMessages : List Str := [c!"Expected exception name", c!"Frame expected"]

theorem javaException_spec (A : Allocator) : ∀ (fuel : Nat) (s : Str) (m : Mem) {v}, s.length < fuel → Java.parseException fuel s = .ok v →
    match (generalizing := false) v with
    | some (l, rest) => javaException A fuel s m = .abort ∨
      ∃ p m' f, javaException A fuel s m = .ok (p, rest, m', []) ∧ Holds m' (calls l) true p f ∧ Adds m m' f
    | none => ∃ lost, Java.lostCalls fuel s = .ok lost ∧ (javaException A fuel s m = .abort ∨
      ∃ msg m' f, javaException A fuel s m = .ok (0, [], m', msg) ∧ msg ∈ exceptionMessages ∧ Keeps m' lost f ∧ Adds m m' f)
  | 0, _, _, _, h, _ => by omega
  | fuel + 1, s, m, v, hlen, hv => by
    rw [Java.parseException] at hv
    rw [Java.lostCalls]
    obtain ⟨r, h1, h2⟩ := bind_ok_iff.1 hv
    clear hv
    have hs := javaHead_spec A (m := m) h1
    obtain ⟨r', e, hr⟩ := Java.exceptionHead_yields s
    rw [h1] at e
    cases e
    rw [h1, Out.bind_ok]
    cases r with
    | none =>
      dsimp only at h2 hs ⊢
      cases h2
      dsimp only
      refine ⟨[], rfl, ?_⟩
      rw [javaException]
      rcases hs with e | ⟨u, e⟩
      · rw [e]; exact .inl rfl
      rw [e, bind_ok]
      dsimp only
      rw [if_pos rfl]
      exact .inr ⟨_, m, [], rfl, by simp [exceptionMessages], rfl, .refl m⟩
    | some x =>
      obtain ⟨exc, u⟩ := x
      have hu := hr _ rfl
      dsimp only at h2 hs hu ⊢
      obtain ⟨r, h3, h4⟩ := bind_ok_iff.1 h2
      clear h2
      obtain ⟨r', e, hr'⟩ := Java.framesLoop_yields (u.length + 1) u [] (by omega)
      rw [h3] at e
      cases e
      rw [h3, Out.bind_ok]
      -- the structure of the exception
      have head : javaHead A s ⟨m, none⟩ = .abort ∨ ∃ p m₁ f, javaHead A s ⟨m, none⟩ = .ok (p, u, ⟨m₁, none⟩) ∧ p ≠ 0 ∧
          Holds m₁ (calls [exc]) true p f ∧ Adds m m₁ f := by
        rcases hs with e | ⟨p, m₁, e, hb⟩
        · exact .inl e
        · obtain ⟨f, hq, hA⟩ := hb.whole rfl
          exact .inr ⟨p, m₁, f, e, hq.ne (by simp [Part.chain]), hq, hA⟩
      clear hs
      cases r with
      | none =>
        dsimp only at h4 ⊢
        cases h4
        dsimp only
        rcases head with e | ⟨p, m₁, f, e, hp, hh, hA⟩
        · obtain ⟨l, hl⟩ := javaFrames_spec.callsBefore_of _ _ _ h3
          refine ⟨[l], by rw [hl]; rfl, .inl ?_⟩
          rw [javaException, e]; rfl
        · have hf := javaFrames_spec A (u.length + 1) u [] 0 m₁ f hh hA (fun h => absurd rfl h) h3
          dsimp only at hf
          obtain ⟨l, hl, hf⟩ := hf
          refine ⟨[l], by rw [hl]; rfl, ?_⟩
          rw [javaException, e, bind_ok]
          dsimp only
          rw [if_neg hp]
          rcases hf with e | ⟨m', q, g, e, h5, h6⟩
          · rw [e]; exact .inl rfl
          rw [e, bind_ok]
          exact .inr ⟨_, m', g, rfl, by simp [exceptionMessages], ⟨q, g, [], h5, rfl, by simp⟩, h6⟩
      | some x =>
        obtain ⟨frames, ending⟩ := x
        have hrest := (hr' _ rfl).1
        dsimp only at h4 hrest ⊢
        obtain ⟨c, h5, h6⟩ := bind_ok_iff.1 h4
        clear h4
        obtain ⟨c', e, hc⟩ := Java.causedBy_yields ending (hr' _ rfl).2
        rw [h5] at e
        cases e
        rw [h5, Out.bind_ok]
        have loop : javaException A (fuel + 1) s m = .abort ∨ ∃ p m₁ f, javaException A (fuel + 1) s m =
              (match c with
                | .inl rest => .ok (p, rest, m₁, [])
                | .inr u =>
                  (javaException A fuel u m₁).bind fun (q, rest, m, msg) =>
                  if q = 0 then (free 16 p false m).bind fun m => .ok (0, [], m, msg)
                  else (appendLoop (s.length + 1) q p m).bind fun m => .ok (q, rest, m, [])) ∧ Holds m₁ (calls (exc :: frames)) true p f ∧ Adds m m₁ f := by
          rw [javaException]
          rcases head with e | ⟨p, m₁, f, e, hp, hh, hA⟩
          · rw [e]; exact .inl rfl
          rw [e, bind_ok]
          dsimp only
          rw [if_neg hp]
          have hf := javaFrames_spec A (u.length + 1) u [] 0 m₁ f hh hA (fun h => absurd rfl h) h3
          dsimp only at hf
          rcases hf with e | ⟨m', f', e, h5', h6'⟩
          · rw [e]; exact .inl rfl
          rw [e, bind_ok]
          dsimp only
          rw [h5, bind_ok]
          exact .inr ⟨p, m', f', rfl, h5', h6'⟩
        cases c with
        | inl t =>
          dsimp only at h6 ⊢
          cases h6
          rcases loop with e | ⟨p, m₁, f, e, h7, h8⟩
          · exact .inl e
          · exact .inr ⟨p, m₁, f, e, h7, h8⟩
        | inr t =>
          dsimp only at h6 hc ⊢
          obtain ⟨i, h9, h10⟩ := bind_ok_iff.1 h6
          clear h6
          cases i with
          | none =>
            dsimp only at h10
            cases h10
            dsimp only
            have ih := fun m => javaException_spec A fuel t m (by omega) h9
            dsimp only at ih
            rcases loop with e | ⟨p, m₁, f, e, h7, h8⟩
            · obtain ⟨lost, hl, _⟩ := ih m
              exact ⟨frames :: lost, by rw [hl]; rfl, .inl e⟩
            obtain ⟨lost, hl, ih⟩ := ih m₁
            refine ⟨frames :: lost, by rw [hl]; rfl, ?_⟩
            rw [e]
            dsimp only
            rcases ih with e' | ⟨msg, m₂, g, e', i1, i2, i3⟩
            · rw [e']; exact .inl rfl
            rw [e', bind_ok]
            dsimp only
            rw [if_pos rfl]
            obtain ⟨q, k, m₃, j1, j2, j3, j4⟩ := freeException (h7.ext i3.ext) (h8.trans i3)
            rw [j1, bind_ok]
            exact .inr ⟨msg, m₃, k ++ g, rfl, i1, ⟨q, k, g, j2, i2.congr fun x hx => j4 x (by simp [hx]), rfl⟩, j3⟩
          | some x =>
            obtain ⟨inner, rest⟩ := x
            dsimp only at h10
            cases h10
            dsimp only
            obtain ⟨k1, k2⟩ := Java.parseException_more fuel t (by omega) h9
            dsimp only at k1 k2
            rcases loop with e | ⟨p, m₁, f, e, h7, h8⟩
            · exact .inl e
            rw [e]
            dsimp only
            have ih := javaException_spec A fuel t m₁ (by omega) h9
            dsimp only at ih
            rcases ih with e' | ⟨q, m₂, g, e', i1, i2⟩
            · rw [e']; exact .inl rfl
            rw [e', bind_ok]
            dsimp only
            rw [if_neg (i1.ne (calls_ne k2))]
            have hA := (h8.trans i2).perm List.perm_append_comm
            obtain ⟨m₃, a1, a2, a3⟩ := appendLoop_spec (n := s.length + 1) (calls_ne k2) (by rw [calls_size]; omega) i1 (h7.ext i2.ext) hA.nodup
            rw [a1, bind_ok]
            rw [calls_append] at a2
            exact .inr ⟨q, m₃, g ++ f, rfl, a2, adds_same hA (fun x hx => a3 x fun hg => hx (by simp [hg])) a2.used⟩

/-- A list becomes a member of a structure that had none. -/
theorem hang_spec {m : Mem} {k d ts w p f v q g} (h : Holds m (.cons k d ts w .nil .nil .nil .nil .nil) true p f) (hq : Holds m v true q g)
    (hd : (f ++ g).Nodup) : ∃ r, m p = some (.record r) ∧ r.a = 0 ∧
      Holds (m.set p (some (.record { r with a := q }))) (.cons k d ts w v .nil .nil .nil .nil) true p (f ++ g) := by
  obtain ⟨r, fs, fa, fb, fc, fe, fn, h0, h1, h2, h3, h4, h5, ⟨ha, rfl⟩, ⟨hb, rfl⟩, ⟨hc, rfl⟩, ⟨he, rfl⟩, hn, rfl⟩ := h
  rw [if_pos rfl] at hn
  obtain ⟨hn, rfl⟩ := hn
  simp only [List.append_nil, List.cons_append, List.nodup_cons, List.mem_append, not_or] at hd
  have keep : ∀ x, x ∈ fs ∨ x ∈ g → m.set p (some (.record { r with a := q })) x = m x := fun x hx => set_ne _ _ fun e => by
    subst e
    rcases hx with hx | hx
    · exact hd.1.1 hx
    · exact hd.1.2 hx
  refine ⟨r, h1, ha, { r with a := q }, fs, g, [], [], [], [], h0, set_eq _ _ _, h2, h3, h4, h5.congr fun x hx => keep x (.inl hx),
    hq.congr fun x hx => keep x (.inr hx), ⟨hb, rfl⟩, ⟨hc, rfl⟩, ⟨he, rfl⟩, ?_, by simp⟩
  rw [if_pos rfl]
  exact ⟨hn, rfl⟩

theorem javaName_spec (A : Allocator) {m₀ m p} (h : Built .javaThread .null m₀ m p (javaThreadPart ⟨none, []⟩)) {inp v} (hv : Java.threadName inp = .ok v) :
    javaName A p inp ⟨m, none⟩ = .abort ∨ match (generalizing := false) v with
    | none => javaName A p inp ⟨m, none⟩ = .ok (none, ⟨m, none⟩)
    | some (name, rest) => ∃ m', javaName A p inp ⟨m, none⟩ = .ok (some rest, ⟨m', none⟩) ∧
      Built .javaThread .null m₀ m' p (javaThreadPart ⟨name, []⟩) := by
  unfold javaName
  unfold Java.threadName at hv
  dsimp only at hv
  split at hv
  · rename_i hc
    cases hv
    rw [if_pos hc]
    exact .inr ⟨m, rfl, h⟩
  rename_i hc
  rw [if_neg hc]
  obtain ⟨⟨n, u⟩, h1, h2⟩ := bind_ok_iff.1 hv
  clear hv
  rw [h1, bind_ok]
  dsimp only at h2 ⊢
  split at h2
  · rename_i hq
    cases h2
    rw [if_pos hq]
    exact .inr rfl
  rename_i hq
  rw [if_neg hq]
  obtain ⟨u', h3, h4⟩ := bind_ok_iff.1 h2
  cases h4
  rcases storeText_spec A h .name (strndup (skipString inp c!"Exception in thread \"").2 n) none rfl with e | ⟨m', e, hb⟩
  · rw [e]; exact .inl rfl
  rw [e, bind_ok, h3, bind_ok]
  exact .inr ⟨m', rfl, hb⟩

/-- The messages when a stack trace cannot be read. -/
def threadMessages : List Str := c!"\"Thread\" name end expected" :: exceptionMessages

end Satyr.Heap

namespace Satyr.Text.Java
open Satyr.CStr
open Satyr.Frames

/-- The frames that `sr_java_stacktrace_parse` does not free if the text cannot be read. -/
def lostFrames (s : Str) : Out (List (List JavaFrame)) := do
  match ← threadName s with
  | none => .ok []
  | some (_, s) => lostCalls (s.length + 1) s

end Satyr.Text.Java

namespace Satyr.Heap
open Satyr.CStr
open Satyr.Text
open Satyr.Frames
open Satyr.Json (Value)

theorem javaThread_spec (A : Allocator) {m inp v} (hv : Java.parseThread inp = .ok v) :
    match (generalizing := false) v with
    | some (t, rest) => javaThread A inp m = .abort ∨
      ∃ p m' f, javaThread A inp m = .ok (p, rest, m', []) ∧ Holds m' ((javaThreadPart t).chain .javaThread 0) true p f ∧ Adds m m' f
    | none => ∃ lost, Java.lostFrames inp = .ok lost ∧ (javaThread A inp m = .abort ∨
      ∃ msg m' f, javaThread A inp m = .ok (0, [], m', msg) ∧ msg ∈ threadMessages ∧ Keeps m' lost f ∧ Adds m m' f) := by
  unfold Java.parseThread at hv
  unfold Java.lostFrames
  obtain ⟨r, h1, h2⟩ := bind_ok_iff.1 hv
  clear hv
  rw [h1, Out.bind_ok]
  have name : ((alloc A (newRecord .javaThread) m).bind fun (p, m) => (javaName A p inp ⟨m, none⟩).bind fun (u, s) =>
      .ok (p, u, s)) = .abort ∨ ∃ p m₁, ((alloc A (newRecord .javaThread) m).bind fun (p, m) => (javaName A p inp ⟨m, none⟩).bind fun (u, s) =>
      .ok (p, u, s)) = .ok (p, r.map Prod.snd, ⟨m₁, none⟩) ∧ Built .javaThread .null m m₁ p (javaThreadPart ⟨r.elim none Prod.fst, []⟩) := by
    rcases new_spec A .javaThread .null m with e | ⟨p, m', e, hb⟩
    · rw [e]; exact .inl rfl
    rw [e, bind_ok]
    dsimp only
    have hn := javaName_spec A hb h1
    cases r with
    | none =>
      rcases hn with e | e
      · rw [e]; exact .inl rfl
      · rw [e]; exact .inr ⟨p, m', rfl, hb⟩
    | some x =>
      rcases hn with e | ⟨m₂, e, hb⟩
      · rw [e]; exact .inl rfl
      · rw [e]; exact .inr ⟨p, m₂, rfl, hb⟩
  have assoc : javaThread A inp m =
      (((alloc A (newRecord .javaThread) m).bind fun (p, m) => (javaName A p inp ⟨m, none⟩).bind fun (u, s) => .ok (p, u, s)).bind fun (p, u, s) =>
      match u with
      | none => (free 16 p false s.mem).bind fun m => .ok (0, [], m, c!"\"Thread\" name end expected")
      | some u =>
        (javaException A (u.length + 1) u s.mem).bind fun (q, rest, m, msg) =>
        (readRecord m p).bind fun r =>
        (writeRecord m p { r with a := q }).bind fun m =>
        if q = 0 then (free 16 p false m).bind fun m => .ok (0, [], m, msg) else .ok (p, rest, m, [])) := by
    unfold javaThread
    cases alloc A (newRecord .javaThread) m with
    | ok a =>
      rw [bind_ok, bind_ok]
      dsimp only
      cases javaName A a.1 inp ⟨a.2, none⟩ <;> rfl
    | abort => rfl
    | ub => rfl
  rw [assoc]
  clear assoc
  -- freeing the thread
  have freed : ∀ {m₁ m₂ : Mem} {p o g}, Built .javaThread .null m m₁ p (javaThreadPart ⟨o, []⟩) → Adds m₁ m₂ g →
      ∃ m', free 16 p false m₂ = .ok m' ∧ Adds m m' g ∧ (∀ x ∈ g, m' x = m₂ x) := by
    intro m₁ m₂ p o g hb hg
    obtain ⟨f, hh, hA⟩ := hb.whole rfl
    have hAA := (hA.trans hg).perm List.perm_append_comm
    have hd := List.nodup_append.1 hAA.nodup
    have hh2 := (hh.ext hg.ext).alone rfl
    exact ⟨erase m₂ f, free_spec ((javaThreadPart ⟨o, []⟩).chain .javaThread 0) 16 false p f m₂ [.javaThread] (by simp [Chain.size, Part.chain, javaThreadPart, chainsOf])
      ⟨by simp, rfl, trivial, ⟨trivial, fun _ => trivial⟩, rfl, rfl, rfl⟩ ⟨by simp, trivial⟩ hh2 hd.2.1, (adds_split hAA).1, fun x hx => if_neg fun hf => hd.2.2 x hx x hf rfl⟩
  cases r with
  | none =>
    dsimp only at h2 ⊢
    cases h2
    dsimp only
    refine ⟨[], rfl, ?_⟩
    rcases name with e | ⟨p, m₁, e, hb⟩
    · rw [e]; exact .inl rfl
    rw [e, bind_ok]
    obtain ⟨m', e1, e2, _⟩ := freed hb (.refl m₁)
    dsimp only [Option.map]
    rw [e1]
    exact .inr ⟨_, m', [], rfl, by simp [threadMessages], rfl, e2⟩
  | some x =>
    obtain ⟨o, u⟩ := x
    dsimp only at h2 ⊢
    obtain ⟨i, h3, h4⟩ := bind_ok_iff.1 h2
    clear h2
    have hE := fun m => javaException_spec A (u.length + 1) u m (by omega) h3
    cases i with
    | none =>
      dsimp only at h4 hE
      cases h4
      dsimp only
      rcases name with e | ⟨p, m₁, e, hb⟩
      · obtain ⟨lost, hl, _⟩ := hE m
        exact ⟨lost, hl, .inl (by rw [e]; rfl)⟩
      obtain ⟨lost, hl, hE⟩ := hE m₁
      refine ⟨lost, hl, ?_⟩
      rw [e, bind_ok]
      dsimp only [Option.map]
      rcases hE with e' | ⟨msg, m₂, g, e', i1, i2, i3⟩
      · rw [e']; exact .inl rfl
      rw [e', bind_ok]
      dsimp only
      obtain ⟨f, hh, hA⟩ := hb.whole rfl
      obtain ⟨r, j1, j2, -⟩ := hang_spec (hh.ext i3.ext) (v := .nil) (q := 0) (g := []) ⟨rfl, rfl⟩ (by rw [List.append_nil]; exact hA.nodup)
      rw [readRecord, j1]
      dsimp only
      rw [bind_ok, writeRecord, j1]
      dsimp only
      rw [bind_ok, if_pos rfl]
      have hr : ({ r with a := 0 } : Record) = r := by cases r; cases j2; rfl
      rw [hr, set_same j1]
      obtain ⟨m', e1, e2, e3⟩ := freed hb i3
      rw [e1]
      exact .inr ⟨msg, m', g, rfl, by simp only [threadMessages, List.mem_cons]; exact .inr i1, i2.congr e3, e2⟩
    | some x =>
      obtain ⟨frames, rest⟩ := x
      have hne := (Java.parseException_more (u.length + 1) u (by omega) h3).2
      dsimp only at h4 hE hne
      cases h4
      dsimp only
      rcases name with e | ⟨p, m₁, e, hb⟩
      · rw [e]; exact .inl rfl
      rw [e, bind_ok]
      dsimp only [Option.map]
      rcases hE m₁ with e' | ⟨q, m₂, g, e', i1, i2⟩
      · rw [e']; exact .inl rfl
      rw [e', bind_ok]
      dsimp only
      obtain ⟨f, hh, hA⟩ := hb.whole rfl
      have hAA := hA.trans i2
      obtain ⟨r, j1, j2, j3⟩ := hang_spec (hh.ext i2.ext) i1 hAA.nodup
      rw [readRecord, j1]
      dsimp only
      rw [bind_ok, writeRecord, j1]
      dsimp only
      rw [bind_ok, if_neg (i1.ne (calls_ne hne))]
      have hp : p ∈ f := hh.mem (by simp [Part.chain])
      exact .inr ⟨p, _, f ++ g, rfl, j3, hAA.set (by simp [hp]) _⟩

end Satyr.Heap
