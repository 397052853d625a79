import Verif.Heap.JsonParts
import Verif.Heap.Props
import Verif.Json.Koops
/-!
# Reading JSON and memory

C144: reading a structure from JSON gives a structure with the contents of the document in new memory; a document that cannot be
read leaves nothing but the message.
-/
namespace Satyr.Heap
open Satyr.CStr
open Satyr.Json
open Satyr.Frames

/-! ## Lemmas -/

theorem careful {k : Kind} (j : Value) (err : Option Ptr) (h1 : k ≠ .jsTrace) (h2 : k ≠ .koopsTrace) : Careful k j err :=
  ⟨fun h => absurd h h1, fun h => absurd h h2⟩

theorem level_le (k : Kind) : level k ≤ 3 := by cases k <;> decide

theorem Reported.refl (m : Mem) : Reported m none [] ⟨m, none⟩ := rfl

/-- What is asked of the modules of a kernel oops. -/
def FewModules (j : Value) : Prop := ∀ l, get j c!"modules" = some (.arr l) → ∃ names : List Str, l = names.map Value.str ∧ names.length < 128

theorem FewModules.ok {j : Value} (h : FewModules j) : ∃ o, Koops.modulesFromJson j = .ok o := by
  unfold Koops.modulesFromJson
  cases hg : Json.get j c!"modules" with
  | none => exact ⟨_, rfl⟩
  | some v =>
    cases v with
    | arr l =>
      obtain ⟨names, rfl, hn⟩ := h l hg
      exact ⟨some (some names), by dsimp only; rw [Koops.readModules_ok names 0 (by omega)]; rfl⟩
    | _ => exact ⟨_, rfl⟩

theorem koops_ok {j : Value} {o} (h : Koops.modulesFromJson j = .ok o) : ∃ v, Koops.fromJson j = .ok v := by
  unfold Koops.fromJson
  rw [h]
  cases Koops.headFromJson j with
  | none => exact ⟨_, rfl⟩
  | some t => cases o <;> exact ⟨_, rfl⟩

theorem readPackages_spec (A : Allocator) {m₀ : Mem} {err : Option Ptr} {n : Nat} : ∀ (l : List Value) (c : Chain) (m : Mem) (p : Ptr) (f : List Ptr),
    Holds m c true p f → Adds m₀ m f → c.Typed [.package] → c.size + l.length < n → (∀ v ∈ l, room v ≤ n) →
    readPackages A n l p ⟨m, err⟩ = .abort ∨ match readAll Rpm.packageFromJson l with
    | none => ∃ msg s, readPackages A n l p ⟨m, err⟩ = .ok (none, s) ∧ Reported m₀ err msg s
    | some ps => ∃ q m' g, readPackages A n l p ⟨m, err⟩ = .ok (some q, ⟨m', err⟩) ∧
        Holds m' (c.append (chainsOf (ps.map fun x => (packagePart x).chain .package 0))) true q g ∧ Adds m₀ m' g
  | [], c, m, p, f, h, ha, _, _, _ => .inr ⟨p, m, f, rfl, by simpa [chainsOf, append_nil] using h, ha⟩
  | v :: l, c, m, p, f, h, ha, ht, hn, hv => by
    rw [readPackages, readAll]
    have h1 := outcome (read_spec A 1 .package v m err (by decide) (by decide) (careful v err (by decide) (by decide))) (package_part 0 v)
    rcases h1 with e | h1
    · rw [e]; exact .inl rfl
    · cases hp : Rpm.packageFromJson v with
      | none =>
        rw [hp] at h1
        obtain ⟨msg, s, e, hs⟩ := h1
        rw [e]
        simp only [bind_ok]
        rw [if_pos trivial, free_spec c n true p f s.mem [.package] (by omega) ht (Chain.constantReporter ht (by decide)) (h.ext hs.ext) ha.nodup]
        exact .inr ⟨msg, _, rfl, hs.erase ha⟩
      | some x =>
        rw [hp] at h1
        obtain ⟨q, m', r, g, e, _, hc, hq, hA⟩ := h1
        have hc0 : r.crashThread = 0 := hc
        rw [hc0] at hq
        rw [e]
        simp only [bind_ok]
        rw [if_neg (hq.ne (by simp [Part.chain]))]
        have hAt := ha.trans hA
        obtain ⟨p', m2, e1, e2, e3, _, _⟩ := append_spec (n := n) (by omega) (h.ext hA.ext) hq hAt.nodup
        rw [e1]
        simp only [bind_ok]
        have ht2 : (c.append ((packagePart x).chain .package 0)).Typed [.package] := typed_append ht
          ⟨by simp, rfl, trivial, MemberOk.nil _ _, MemberOk.nil _ _, MemberOk.nil _ _, MemberOk.nil _ _⟩
        have hA2 : Adds m₀ m2 (f ++ g) := ⟨hAt.nodup, hAt.fresh, fun y hy => e2.used y hy,
          fun y hy => by rw [e3 y (fun h => hy (by simp [h])), hAt.same y hy]⟩
        have h2 := readPackages_spec A (err := err) l _ m2 p' (f ++ g) e2 hA2 ht2 (by
          rw [size_append]
          simp only [Part.chain, Chain.size, List.length_cons, packagePart] at *
          omega) (fun v' h' => hv v' (by simp [h']))
        rcases h2 with e4 | h2
        · exact .inl e4
        · refine .inr ?_
          show match (readAll Rpm.packageFromJson l).map fun as => x :: as with
            | none => _
            | some ps => _
          cases hr : readAll Rpm.packageFromJson l with
          | none => rw [hr] at h2; exact h2
          | some ps =>
            rw [hr] at h2
            obtain ⟨q', m3, g', e5, e6, e7⟩ := h2
            exact ⟨q', m3, g', e5, by simpa only [List.map_cons, chainsOf, append_assoc] using e6, e7⟩

/-! ## C144 -/

/-- **C144** for core stack traces: the program aborts for lack of memory, or the result is a stack trace with the contents of
the document in new memory, all other memory being as before, or the document has no stack trace and nothing but the message is
left. -/
theorem C144_core (A : Allocator) (j : Value) (m : Mem) (err : Option Ptr) :
    Outcome .coreTrace m err ((Core.fromJson j).map coreTracePart) (read A 3 .coreTrace j ⟨m, err⟩) :=
  outcome (read_spec A 3 _ j m err (level_le _) (by decide) (careful j err (by decide) (by decide))) (coreTrace_part 0 j)

/-- **C144** for Java stack traces. -/
theorem C144_java (A : Allocator) (j : Value) (m : Mem) (err : Option Ptr) :
    Outcome .javaTrace m err ((Java.fromJson j).map javaTracePart) (read A 3 .javaTrace j ⟨m, err⟩) :=
  outcome (read_spec A 3 _ j m err (level_le _) (by decide) (careful j err (by decide) (by decide))) (javaTrace_part 0 j)

/-- **C144** for Python stack traces. -/
theorem C144_python (A : Allocator) (j : Value) (m : Mem) (err : Option Ptr) :
    Outcome .pythonTrace m err ((Python.fromJson j).map pythonTracePart) (read A 3 .pythonTrace j ⟨m, err⟩) :=
  outcome (read_spec A 3 _ j m err (level_le _) (by decide) (careful j err (by decide) (by decide))) (pythonTrace_part 1 j)

/-- **C144** for Ruby stack traces. -/
theorem C144_ruby (A : Allocator) (j : Value) (m : Mem) (err : Option Ptr) :
    Outcome .rubyTrace m err ((Ruby.fromJson j).map rubyTracePart) (read A 3 .rubyTrace j ⟨m, err⟩) :=
  outcome (read_spec A 3 _ j m err (level_le _) (by decide) (careful j err (by decide) (by decide))) (rubyTrace_part 1 j)

/-- **C144** for JavaScript stack traces, if the caller passes a pointer to a NULL for the message. -/
theorem C144_js_partial (A : Allocator) (j : Value) (m : Mem) :
    Outcome .jsTrace m (some 0) ((Js.fromJson j).map jsTracePart) (read A 3 .jsTrace j ⟨m, some 0⟩) :=
  outcome (read_spec A 3 _ j m _ (level_le _) (by decide) ⟨fun _ => rfl, fun h => by cases h⟩) (jsTrace_part 1 j)

/-- **C144** for kernel oopses, if the array of modules holds fewer than 128 values, and only texts. -/
theorem C144_koops_partial (A : Allocator) (j : Value) (m : Mem) (err : Option Ptr) (hm : FewModules j) :
    ∃ v, Koops.fromJson j = .ok v ∧ Outcome .koopsTrace m err (v.map koopsTracePart) (read A 3 .koopsTrace j ⟨m, err⟩) := by
  obtain ⟨o, ho⟩ := hm.ok
  obtain ⟨v, hv⟩ := koops_ok ho
  exact ⟨v, hv, outcome (read_spec A 3 _ j m err (level_le _) (by decide) ⟨(fun h => by cases h), fun _ => ⟨o, ho⟩⟩) (koopsTrace_part 1 j hv)⟩

/-- **C144** for a list of packages; the whole list is freed if one of them cannot be read. -/
theorem C144_packages (A : Allocator) (j : Value) (m : Mem) (err : Option Ptr) :
    readPackageList A j ⟨m, err⟩ = .abort ∨ match Rpm.listFromJson j with
    | none => ∃ msg s, readPackageList A j ⟨m, err⟩ = .ok (none, s) ∧ Reported m err msg s
    | some ps => ∃ q m' g, readPackageList A j ⟨m, err⟩ = .ok (some q, ⟨m', err⟩) ∧
        Holds m' (chainsOf (ps.map fun x => (packagePart x).chain .package 0)) true q g ∧ Adds m m' g := by
  have bad : ((setError A (typeError c!"package list" c!"array") ⟨m, err⟩).bind fun s => Out.ok ((none : Option Ptr), s)) = .abort ∨
      ∃ msg s, ((setError A (typeError c!"package list" c!"array") ⟨m, err⟩).bind fun s => Out.ok ((none : Option Ptr), s)) = .ok (none, s) ∧
        Reported m err msg s := by
    rcases setError_spec A (typeError c!"package list" c!"array") ⟨m, err⟩ with e | ⟨s, e, hs⟩
    · rw [e]; exact .inl rfl
    · rw [e]; exact .inr ⟨_, s, rfl, hs⟩
  cases j with
  | arr l =>
    have hw : ∀ {l : List Value} {v}, v ∈ l → weight v ≤ weights l := by
      intro l
      induction l with
      | nil => simp
      | cons u l ih =>
        intro v hv
        rw [weights]
        rcases List.mem_cons.1 hv with rfl | hv
        · omega
        · have := ih hv; omega
    exact readPackages_spec A l .nil m 0 [] ⟨rfl, rfl⟩ ⟨by simp, by simp, by simp, by simp⟩ trivial
      (by have := length_le_weights l; simp only [Chain.size, room, weight]; omega)
      (fun v hv => by have := hw hv; simp only [room, weight]; omega)
  | _ => exact bad

/-- **C144**: freeing what was read gives back all of its memory, and no other memory. -/
theorem C144_freed_partial (A : Allocator) (k : Kind) (j : Value) (m : Mem) (err : Option Ptr) (p : Ptr) (s : State) (hk : k ≠ .report)
    (hjs : k = .jsTrace → err = some 0) (hko : k = .koopsTrace → FewModules j) (h : read A 3 k j ⟨m, err⟩ = .ok (p, s)) (hp : p ≠ 0) (b : Bool) :
    s.err = err ∧ Heap.free (room j) p b s.mem = .ok m := by
  rcases read_spec A 3 k j m err (level_le k) hk ⟨hjs, fun h => (hko h).ok⟩ with e | h1
  · rw [e] at h; cases h
  · cases hr : partOfJson 3 k j with
    | error msg =>
      rw [hr] at h1
      obtain ⟨s', e, _⟩ := h1
      rw [e] at h
      cases h
      exact absurd rfl hp
    | ok x =>
      rw [hr] at h1
      obtain ⟨q, m₁, e, hb⟩ := h1
      rw [e] at h
      cases h
      obtain ⟨m₂, e1, e2⟩ := hb.free (fun e => absurd e hk) (Reported.refl m₁) b (Nat.le_refl _)
      have : m₂ = m := by
        have h3 : (⟨m₂, none⟩ : State) = ⟨m, none⟩ := e2
        cases h3
        rfl
      exact ⟨rfl, this ▸ e1⟩

/-! ## Examples -/

def noMem : Mem := fun _ => none

/-- The result, and how much memory is in use below 100, and the pointer to the message. -/
def seen (o : Out (Ptr × State)) : Option (Ptr × Nat × Option Ptr) :=
  match o with
  | .ok (p, s) => some (p, ((List.range 100).filter fun x => (s.mem x).isSome).length, s.err)
  | _ => none

/-- Undefined behaviour. -/
def undefined (o : Out (Ptr × State)) : Bool :=
  match o with
  | .ub => true
  | _ => false

theorem undefined_iff {o} (h : undefined o = true) : o = .ub := by cases o <;> first | rfl | cases h

def coreDoc (crash : Value) : Value :=
  .obj [(c!"signal", .num 11), (c!"executable", .str c!"/usr/bin/a"),
    (c!"stacktrace", .arr [.obj [(c!"frames", .arr [.obj [(c!"address", .num 1), (c!"function_name", .str c!"f")], .obj [(c!"file_name", .str c!"x")]])],
      .obj [(c!"crash_thread", crash)]])]

/-- A document is read, and a document with a wrong member in the last thread is refused after nine pieces of memory have been
used: only the message is left. -/
example : (Core.fromJson (coreDoc (.bool true))).isSome = true ∧
    seen (read firstFree 3 .coreTrace (coreDoc (.bool true)) ⟨noMem, some 0⟩) = some (1, 8, some 0) ∧
    Core.fromJson (coreDoc (.num 1)) = none ∧
    seen (read firstFree 3 .coreTrace (coreDoc (.num 1)) ⟨noMem, some 0⟩) = some (0, 1, some 9) := by
  decide +kernel

def koopsDoc (modules : List Value) : Value :=
  .obj [(c!"version", .str c!"1"), (c!"modules", .arr modules), (c!"frames", .arr [.obj [(c!"function_name", .str c!"f")]])]

example : FewModules (koopsDoc [.str c!"a", .str c!"b"]) ∧
    seen (read firstFree 3 .koopsTrace (koopsDoc [.str c!"a", .str c!"b"]) ⟨noMem, none⟩) = some (1, 9, none) := by
  refine ⟨fun l h => ?_, by decide +kernel⟩
  have : l = [.str c!"a", .str c!"b"] := by
    have e : get (koopsDoc [.str c!"a", .str c!"b"]) c!"modules" = some (.arr [.str c!"a", .str c!"b"]) := rfl
    rw [e] at h
    injection h with h
    injection h with h
    exact h.symm
  exact ⟨[c!"a", c!"b"], this, by decide⟩

def jsDoc : Value := .obj [(c!"platform", .obj [(c!"engine", .str c!"V8"), (c!"runtime", .str c!"Node.js")])]

example : (Js.fromJson jsDoc).isSome = true ∧ seen (read firstFree 3 .jsTrace jsDoc ⟨noMem, some 0⟩) = some (1, 1, some 0) := by
  decide +kernel

example : (Rpm.listFromJson (.arr [.obj [(c!"name", .str c!"a")], .obj []])).isSome = true ∧
    Rpm.listFromJson (.arr [.obj [(c!"name", .str c!"a")], .num 1]) = none ∧
    seen ((readPackageList firstFree (.arr [.obj [(c!"name", .str c!"a")], .num 1]) ⟨noMem, some 0⟩).bind fun (r, s) => .ok (r.getD 99, s)) =
      some (99, 1, some 3) := by
  decide +kernel

/-- **C144** fails for kernel oopses with a module that is not a text: the array ends in a value that was never set. -/
theorem C144_not_modules : ∃ (A : Allocator) (j : Value) (m : Mem) (err : Option Ptr), read A 3 .koopsTrace j ⟨m, err⟩ = .ub :=
  ⟨firstFree, koopsDoc [.str c!"a", .num 1], noMem, some 0, undefined_iff (by decide +kernel)⟩

/-- **C144** fails for JavaScript stack traces with a platform if the caller does not want a message: NULL is dereferenced. -/
theorem C144_not_js_null : ∃ (A : Allocator) (j : Value) (m : Mem), (Js.fromJson j).isSome = true ∧ read A 3 .jsTrace j ⟨m, none⟩ = .ub :=
  ⟨firstFree, jsDoc, noMem, by decide +kernel, undefined_iff (by decide +kernel)⟩

/-- **C144** fails for JavaScript stack traces with a platform if there is a message from before: the document is refused. -/
theorem C144_not_js_message : ∃ (A : Allocator) (j : Value) (m : Mem) (err : Ptr), (Js.fromJson j).isSome = true ∧
    seen (read A 3 .jsTrace j ⟨m, some err⟩) = some (0, 0, some err) :=
  ⟨firstFree, jsDoc, noMem, 100, by decide +kernel⟩

end Satyr.Heap
