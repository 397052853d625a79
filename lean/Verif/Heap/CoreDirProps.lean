import Verif.Heap.CoreDirModel
import Verif.Heap.TraceDirProps
import Verif.Heap.JsonProps
/-!
# The stack trace of a core dump in a problem directory

C156: memory after the report of a core dump is read.
-/
namespace Satyr.Heap
open Satyr.CStr
open Satyr.Json
open Satyr.Frames
open Satyr.Abrt (Dir)
open Satyr.Report (ReportType UReport Stacktrace)

theorem core_built (A : Allocator) (j : Value) (m : Mem) (err : Option Ptr) : read A 3 .coreTrace j ⟨m, err⟩ = .abort ∨ match Core.fromJson j with
    | none => ∃ msg s, read A 3 .coreTrace j ⟨m, err⟩ = .ok (0, s) ∧ Reported m err msg s
    | some t => ∃ q m', read A 3 .coreTrace j ⟨m, err⟩ = .ok (q, ⟨m', err⟩) ∧ Built .coreTrace j m m' q (coreTracePart t) := by
  have h := read_spec A 3 .coreTrace j m err (level_le _) (by decide) (careful j err (by decide) (by decide))
  have hp := coreTrace_part 0 j
  rcases h with h | h
  · exact .inl h
  refine .inr ?_
  change (partOfJson 3 .coreTrace j).toOption = _ at hp
  generalize partOfJson 3 .coreTrace j = r at h hp
  cases ht : Core.fromJson j with
  | none =>
    rw [ht] at hp
    cases r with
    | error msg => obtain ⟨s, h⟩ := h; exact ⟨msg, s, h⟩
    | ok x => cases hp
  | some t =>
    rw [ht] at hp
    cases r with
    | error msg => cases hp
    | ok x =>
      cases hp
      exact h

theorem restore {b : Mem} {q : Ptr} (c : Option Cell) (h : b q = none) : (b.set q c).set q none = b := by
  funext x
  by_cases e : x = q
  · rw [e, set_eq, h]
  · rw [set_ne _ _ e, set_ne _ _ e]

/-- C156: the file `core_backtrace` can be read. The program stops for lack of memory; or the text says a stack trace, memory is as before with
the report and its stack trace in addition, the pointer to the crash thread is the address of the thread that the text marks, the message
is as before, and freeing the report gives back all memory; or the text says none, the report is freed, and a message is all that is
added. -/
theorem C156_core (A : Allocator) {n : Nat} {d : Dir} {b m p r} (e : Ptr) (h : Stands b m p r n) {s : Str} (hd : d.contents c!"core_backtrace" = some s) :
    stackTrace A (coreFile A n d) n d ReportType.core.code p m e = .abort ∨ match Abrt.coreFromText s with
    | some t => ∃ w m' f, stackTrace A (coreFile A n d) n d ReportType.core.code p m e = .ok (p, m', e) ∧
        Holds m' ((reportPart { r with stacktrace := some (.core t) } none none w).chain .report 0) true p f ∧ Adds b m' f ∧
        CrashAt m' p (some (.core t)) ∧ ∃ k, ∀ l, k ≤ l → free l p false m' = .ok b
    | none => ∃ z msg, z ≠ 0 ∧ b z = none ∧
        stackTrace A (coreFile A n d) n d ReportType.core.code p m e = .ok (0, b.set z (some (.text msg)), z) := by
  obtain ⟨_, _, _, h3, h4, h5⟩ := id h
  have h := h.draft
  show coreFile A n d p m e = .abort ∨ match Abrt.coreFromText s with
    | some t => ∃ w m' f, coreFile A n d p m e = .ok (p, m', e) ∧
        Holds m' ((reportPart { r with stacktrace := some (.core t) } none none w).chain .report 0) true p f ∧ Adds b m' f ∧
        CrashAt m' p (some (.core t)) ∧ ∃ k, ∀ l, k ≤ l → free l p false m' = .ok b
    | none => ∃ z msg, z ≠ 0 ∧ b z = none ∧ coreFile A n d p m e = .ok (0, b.set z (some (.text msg)), z)
  rw [coreFile]
  rcases fileText_spec A d c!"core_backtrace" m e with a | hf
  · rw [a]; exact .inl rfl
  rw [hd] at hf
  obtain ⟨q, _, a, q0, q1, rfl⟩ := hf
  obtain ⟨bq, d1⟩ := h.cell (c := .text s) q1
  rw [a, bind_ok]
  dsimp only
  rw [if_neg q0, readText, set_eq]
  dsimp only
  rw [bind_ok, coreText, Abrt.coreFromText]
  -- The end if there is no stack trace.
  have none_end : ∀ {z : Ptr} {msg : Str}, z ≠ 0 → (m.set q (some (.text s))) z = none → b z = none ∧
      ((put p (fun r => { r with c := 0 }) ((m.set q (some (.text s))).set z (some (.text msg)))).bind fun m => (freeBlock m q).bind fun m =>
        if (0 : Ptr) = 0 then dropReport n p m z else .ok (p, m, z)) = .ok (0, b.set z (some (.text msg)), z) := by
    intro z msg z0 z1
    obtain ⟨y1, y2⟩ := d1.cell (c := .text msg) z1
    have hzq : q ≠ z := fun e => by rw [e, set_eq] at y1; cases y1
    obtain ⟨m₃, a, d2⟩ := y2.trace h3 (t := none) (g := []) (q := 0) ⟨rfl, rfl⟩ (.refl _)
    rw [a, bind_ok]
    rw [set_ne _ _ (Ne.symm hzq)] at y1
    rw [set_swap _ _ _ hzq] at d2
    obtain ⟨m₄, a, d3⟩ := d2.uncell q0 (by rw [set_ne _ _ hzq, bq])
    rw [a, bind_ok, if_pos rfl, d3.drop rfl h5]
    exact ⟨y1, rfl⟩
  cases hj : Json.parse s with
  | none =>
    dsimp only
    rcases alloc_spec A (.text []) (m.set q (some (.text s))) with a | ⟨z, a, z0, hz⟩
    · rw [a]; exact .inl rfl
    rw [a, bind_ok]
    obtain ⟨k1, k2⟩ := none_end (msg := []) z0 (hz.fresh z (by simp))
    exact .inr ⟨z, [], z0, k1, k2⟩
  | some j =>
    dsimp only
    rw [Option.bind_some]
    rcases core_built A j (m.set q (some (.text s))) (some e) with a | hc
    · rw [a]; exact .inl rfl
    cases ht : Core.fromJson j with
    | none =>
      rw [ht] at hc
      obtain ⟨msg, st, a, z, z1, z0, rfl⟩ := hc
      rw [a, bind_ok]
      obtain ⟨k1, k2⟩ := none_end (msg := msg) z0 z1
      exact .inr ⟨z, msg, z0, k1, k2⟩
    | some t =>
      rw [ht] at hc
      obtain ⟨w, m₁, a, hb⟩ := hc
      have hok := hb.1
      obtain ⟨rt, g, i1, i2, i3, i4⟩ := hb.holds
      have w0 : w ≠ 0 := i3.ne (by simp [Part.chain])
      obtain ⟨x, fs, fa, fb, fc, g0, g1, g2, g3, g4, ga, gb, gc, ge, gn, gw, gu, g'⟩ := d1.more i4
      rw [h3] at gc
      obtain ⟨_, rfl⟩ := gc
      rw [a, bind_ok]
      dsimp only
      rw [bind_ok]
      dsimp only
      rw [put_spec _ g1, bind_ok]
      have hA : Adds (b.set q (some (.text s))) m₁ (p :: (fs ++ (fa ++ (fb ++ (g ++ ([] ++ [])))))) := g'.perm (by simp)
      have hp := (List.nodup_cons.1 hA.nodup).1
      have keep : ∀ {l : List Ptr} (c : Cell), (∀ y ∈ l, y ∈ fs ++ (fa ++ (fb ++ (g ++ ([] ++ []))))) → ∀ y ∈ l, m₁.set p (some c) y = m₁ y :=
        fun c hl y hy => set_ne _ _ fun e : y = p => hp (e ▸ hl y hy)
      have hA' := hA.set (p := p) (by simp) (.record { x with c := w })
      obtain ⟨m₂, e2, u1, u2, u3⟩ := hA'.uncell bq
      have hfree : freeBlock (m₁.set p (some (.record { x with c := w }))) q = .ok m₂ := by
        rw [e2, freeBlock, if_neg q0, set_eq]
        dsimp only
        rw [restore _ u1]
      rw [hfree, bind_ok, if_neg w0]
      -- The report.
      have hold : Holds (m₁.set p (some (.record { x with c := w }))) ((reportPart { r with stacktrace := some (.core t) } none none rt.crashThread).chain .report 0) true p
          (p :: (fs ++ (fa ++ (fb ++ (g ++ ([] ++ [])))))) := by
        refine ⟨_, fs, fa, fb, g, [], [], g0, set_eq _ _ _, g2, g3, gw, g4.congr (keep _ (by simp +contextual)), ga.congr (keep _ (by simp +contextual)),
          gb.congr (keep _ (by simp +contextual)), i3.congr (keep _ (by simp +contextual)), ?_, ⟨gn, rfl⟩, rfl⟩
        show Holds _ (entryChain r.auth) true x.e []
        rw [h4]
        exact ⟨ge, rfl⟩
      have hold2 := hold.congr u3
      have hty := hok.typed rt.crashThread
      obtain ⟨s1, s2, s3⟩ := systemChain_typed r.os
      obtain ⟨p1, p2⟩ := packageChain_spec r.packages
      have htyped : ((reportPart { r with stacktrace := some (.core t) } none none rt.crashThread).chain .report 0).Typed [.report] := by
        refine ⟨by simp, rfl, trivial, ⟨s1, fun _ => s2⟩, ⟨p1, fun h => by cases h⟩, ⟨⟨show Kind.coreTrace ∈ traces by decide, hty.2⟩, fun _ => rfl⟩, ?_⟩
        have he : (reportPart { r with stacktrace := some (.core t) } none none rt.crashThread).e = .nil := by
          show entryChain r.auth = .nil
          rw [h4]; rfl
        rw [he]; exact MemberOk.nil _ _
      refine .inr ⟨rt.crashThread, m₂, _, rfl, hold2, u2, ?_, ((reportPart { r with stacktrace := some (.core t) } none none rt.crashThread).chain .report 0).size + 1, fun l hl => ?_⟩
      · intro t' ht'
        cases ht'
        obtain ⟨_, rt', fs', fa', fb', fc', fe', j0, j1, j2, j3, j4, ja, jb, jc, je, jn, jw, jadds⟩ := id hb
        rw [i1] at j1
        cases j1
        obtain ⟨rt2, gs, ga2, gb2, gc2, ge2, gn2, l0, l1, l2, l3, lw, l4, la, lb, lc, le, ln, hgl⟩ := id i3
        rw [i1] at l1
        cases l1
        have hsame : ∀ y ∈ g, m₂ y = m₁ y := fun y hy => by
          rw [u3 y (by simp [hy]), keep (l := g) _ (by simp +contextual) y hy]
        refine ⟨{ x with c := w }, rt, by rw [u3 p (by simp), set_eq], by show m₂ w = _; rw [hsame w (by rw [hgl]; simp), i1], ?_, fun i hi => (hok.crash i hi).1⟩
        rw [i2]
        show (coreTracePart t).crash.elim 0 (nth m₁ rt.a) = (coreTracePart t).crash.elim 0 (nth m₂ rt.a)
        cases hcr : (coreTracePart t).crash with
        | none => rfl
        | some i => exact (nth_congr la (fun y hy => hsame y (by rw [hgl]; simp [hy])) (hok.crash i hcr).1).1.symm
      · rw [Heap.free_spec _ l false p _ m₂ [.report] (by omega) htyped ⟨fun _ => ⟨rfl, rfl⟩, trivial⟩ (hold2.alone rfl) u2.nodup, u2.erase]

/-- C156: without the file `core_backtrace` the report is freed, and the message is all that is added. -/
theorem C156_no_file (A : Allocator) {n : Nat} {d : Dir} {b m p r} (e : Ptr) (h : Stands b m p r n) (hd : d.contents c!"core_backtrace" = none) :
    Gained (fun _ g => g = []) none b e p r (stackTrace A (coreFile A n d) n d ReportType.core.code p m e) := by
  obtain ⟨_, _, _, h3, _, h5⟩ := id h
  show Gained _ none b e p r (coreFile A n d p m e)
  rw [coreFile]
  rcases fileText_spec A d c!"core_backtrace" m e with a | hf
  · rw [a]; exact .inl rfl
  rw [hd] at hf
  obtain ⟨z, m', a, h0, h1, rfl⟩ := hf
  obtain ⟨k1, k2⟩ := h.draft.cell (c := .text []) h1
  rw [a, bind_ok]
  dsimp only
  rw [if_pos rfl, k2.drop h3 h5]
  exact .inr ⟨b, [], .refl b, rfl, z, h0, k1, rfl⟩

/-! ## Non-vacuity -/

/-- As `seen155`, for the report of a core dump; also whether the stack trace has a crash thread. -/
def seen156 (l : List (Str × Str)) : Option (Option (Kind × Bool) × Ptr × List Ptr) :=
  match reportDir firstFree insertionSort (coreFile firstFree 107 (filesOf ((c!"type", c!"CCpp") :: l ++ complete154))) 99
      (filesOf ((c!"type", c!"CCpp") :: l ++ complete154)) 0 (fun _ => none) 0 with
  | .ok (p, m, e) => some (match m p with
      | some (.record r) => (match m r.c with
        | some (.record t) => some (t.kind, decide (t.crashThread ≠ 0))
        | _ => none)
      | _ => none, e, (List.range 60).filter fun x => (m x).isSome)
  | _ => none

set_option maxRecDepth 40000 in
example : seen156 [(c!"core_backtrace", c!"{\"signal\": 11, \"stacktrace\": [{\"crash_thread\": true, \"frames\": [{\"address\": 1}]}]}")] =
    some (some (.coreTrace, true), 0, [1, 2, 3, 4, 5, 6, 7, 8, 9, 10, 11, 12, 13, 14, 15, 16, 17, 18, 19, 20, 21, 22, 23, 25, 26]) := by decide +kernel
set_option maxRecDepth 40000 in
example : seen156 [(c!"core_backtrace", c!"{\"signal\": \"x\"}")] =
    some (none, 25, [25]) := by decide +kernel
set_option maxRecDepth 40000 in
example : seen156 [(c!"core_backtrace", c!"{")] =
    some (none, 14, [14]) := by decide +kernel
set_option maxRecDepth 40000 in
example : seen156 [] =
    some (none, 24, [24]) := by decide +kernel

end Satyr.Heap
