import Verif.Heap.PackageDirLemmas
import Verif.Heap.PackageProps
import Verif.Abrt.Report
/-!
# Packages of a problem directory in memory

C152: memory after the packages of a problem directory are read.
-/
namespace Satyr.Heap
open Satyr.CStr
open Satyr.Rpm (Package)
open Satyr.Abrt (Dir)

/-- The package of the program, if the directory says that it is packaged. -/
def Own (d : Dir) (own : List Package) : Prop := if d.exist c!"package" then ∃ x, Abrt.IsPackage d x ∧ own = [x] else own = []

theorem told_zero {m m' : Mem} {e e' : Ptr} (h : Told m e 0 m' e') : m' = m ∧ e' = e := by
  cases h
  exact ⟨rfl, rfl⟩

theorem ownFile_spec (A : Allocator) {d : Dir} {own : List Package} (ho : Own d own) (m : Mem) (e : Ptr) :
    ownFile A d m e = .abort ∨ ∃ p m', ownFile A d m e = .ok (true, p, m', e) ∧ Packages m m' own p := by
  rw [ownFile]
  rw [Own] at ho
  rcases fileExist_spec A d c!"package" m with a | a
  · rw [a]; exact .inl rfl
  rw [a, bind_ok]
  dsimp only
  cases hx : d.exist c!"package" with
  | false =>
    rw [hx, if_neg (by simp)] at ho
    subst ho
    exact .inr ⟨0, m, rfl, [], ⟨rfl, rfl⟩, .refl m⟩
  | true =>
    rw [hx, if_pos rfl] at ho
    obtain ⟨x, ⟨s, n, v, r, c, h1, h2, h3, h4, h5, h6, rfl⟩, rfl⟩ := ho
    rw [if_pos rfl]
    rcases new_spec A .package .null m with a | ⟨p, m₁, a, hb⟩
    · rw [a]; exact .inl rfl
    rw [a, bind_ok]
    dsimp only
    rw [packageFiles]
    rcases fileText_spec A d c!"pkg_epoch" m₁ e with a | hf
    · rw [a]; exact .inl rfl
    rw [h1] at hf
    obtain ⟨q, m₂, a, hq⟩ := hf
    rw [a, bind_ok]
    dsimp only
    rw [if_neg hq.1, readText_spec hq, bind_ok, if_neg h6, freeBlock_text hq, bind_ok]
    rcases packageMembers_spec A d (strtoull 10 s).value (b := m) (e₀ := e) .nil hb with a | ⟨m₃, e', ht, _, hk⟩
    · rw [a]; exact .inl rfl
    obtain ⟨m₄, a, hc⟩ := hk n v r c h2 h3 h4 h5
    have h0 : 0 + unreadMembers d = 0 := by simp [unreadMembers, unread, h2, h3, h4, h5]
    rw [h0] at ht
    obtain ⟨rfl, rfl⟩ := told_zero ht
    rw [a, bind_ok]
    obtain ⟨w, f, _, k2, k3, k4⟩ := hc.holds
    rw [k2] at k3
    refine .inr ⟨p, m₄, ?_, f, k3, k4⟩
    have : p ≠ 0 := hc.ne
    simp [this]

theorem own_plain {d : Dir} {own : List Package} (h : Own d own) : own.length ≤ 1 ∧ ∀ x ∈ own, x.consistency = [] := by
  rw [Own] at h
  split at h
  · obtain ⟨x, ⟨s, n, v, r, c, h1, h2, h3, h4, h5, h6, rfl⟩, rfl⟩ := h
    simp
  · subst h; simp

/-- C152: the package of the program can be read if there is one, the list of libraries can be parsed if it can be read, and the package of
the interpreter has no epoch that is not a number. Either the program stops for lack of memory, or the packages are those that the files say.
Memory is as before, with the packages in addition, and one message for the list of libraries and for the interpreter each if there is such
a file and it cannot be read. If no package was found although there is a list of libraries, the function fails and the only memory added
is the message. -/
theorem C152_packages_partial (A : Allocator) {qsort} (hq : IsQsort qsort) {n : Nat} {d : Dir} {own : List Package} (m : Mem) (e : Ptr)
    (ho : Own d own) (hn : 1 ≤ n)
    (hd : ∀ t, d.contents c!"dso_list" = some t → (∃ l, Rpm.parseDsoList t = .ok l) ∧ t.length + 3 ≤ n)
    (hi : ∀ t, d.contents c!"interpreter" = some t → Rpm.parseNevra t ≠ .failDangling) :
    dirPackages A qsort n d m e = .abort ∨ ∃ libs m₁ e', Libraries d own libs ∧
      if libs = [] ∧ d.exist c!"dso_list" = true then
        dirPackages A qsort n d m e = .ok (false, 0, m₁, e') ∧ Told m e (messages d c!"dso_list") m₁ e'
      else ∃ ps p m' f, Abrt.IsInterpreter d libs ps ∧ dirPackages A qsort n d m e = .ok (true, p, m', e') ∧
        Told m e (messages d c!"dso_list" + messages d c!"interpreter") m₁ e' ∧ Holds m' (packageChain ps) true p f ∧ Adds m₁ m' f := by
  obtain ⟨o1, o2⟩ := own_plain ho
  rw [dirPackages]
  rcases ownFile_spec A ho m e with a | ⟨p, m₁, a, h⟩
  · rw [a]; exact .inl rfl
  rw [a, bind_ok]
  dsimp only
  rw [if_neg (by simp)]
  rcases libraryFiles_spec A hq (.nil (e := e)) h o2 o1 hn hd with a | ⟨libs, r, m₂, m₃, e₁, hl, hlen, a, ht, h⟩
  · rw [a]; exact .inl rfl
  rw [a, bind_ok]
  dsimp only
  rw [Nat.zero_add] at ht
  by_cases c : libs = [] ∧ d.exist c!"dso_list" = true
  · rw [if_pos (by rw [c.1, c.2]; rfl)]
    obtain ⟨f, k1, k2⟩ := h
    rw [c.1] at k1
    obtain ⟨rfl, rfl⟩ := k1
    obtain rfl : m₂ = m₃ := (k2.erase).symm
    refine .inr ⟨libs, m₂, e₁, hl, ?_⟩
    rw [if_pos c]
    exact ⟨rfl, ht⟩
  · have c' : decide (libs ≠ [] ∨ d.exist c!"dso_list" = false) ≠ false := by
      rw [not_and_or] at c
      rcases c with c | c <;> simp [c]
    rw [if_neg c']
    rcases interpreterFiles_spec A ht h hlen hi with a | ⟨ps, z, m₄, m₅, e₂, h1, a, h2, f, h3, h4⟩
    · exact .inl a
    refine .inr ⟨libs, m₄, e₂, hl, ?_⟩
    rw [if_neg c]
    exact ⟨ps, z, m₅, f, h1, a, h2, h3, h4⟩

/-- C152: if, in addition, the list of libraries and the name of the interpreter can be read whenever there are such files, and there is
a package at all, then the memory added is the list of packages and nothing else, and the message is as before. -/
theorem C152_clean_partial (A : Allocator) {qsort} (hq : IsQsort qsort) {n : Nat} {d : Dir} {own : List Package} (m : Mem) (e : Ptr)
    (ho : Own d own) (h0 : own ≠ []) (hn : 1 ≤ n)
    (hd : ∀ t, d.contents c!"dso_list" = some t → (∃ l, Rpm.parseDsoList t = .ok l) ∧ t.length + 3 ≤ n)
    (hi : ∀ t, d.contents c!"interpreter" = some t → Rpm.parseNevra t ≠ .failDangling)
    (hd' : d.exist c!"dso_list" = true → d.contents c!"dso_list" ≠ none) (hi' : d.exist c!"interpreter" = true → d.contents c!"interpreter" ≠ none) :
    dirPackages A qsort n d m e = .abort ∨ ∃ libs ps p m' f, Libraries d own libs ∧ Abrt.IsInterpreter d libs ps ∧
      dirPackages A qsort n d m e = .ok (true, p, m', e) ∧ Holds m' (packageChain ps) true p f ∧ Adds m m' f := by
  have none1 : messages d c!"dso_list" = 0 := by
    rw [messages, unread]
    split
    · rename_i h; rw [if_neg (hd' h)]
    · rfl
  have none2 : messages d c!"interpreter" = 0 := by
    rw [messages, unread]
    split
    · rename_i h; rw [if_neg (hi' h)]
    · rfl
  rcases C152_packages_partial A hq m e ho hn hd hi with a | ⟨libs, m₁, e', hl, h⟩
  · exact .inl a
  have hne : libs ≠ [] := by
    unfold Libraries at hl
    split at hl
    · obtain ⟨dsos, _, hj⟩ := hl
      unfold Joined at hj
      split at hj
      · rw [hj]; exact h0
      · obtain ⟨s, hs, rfl⟩ := hj
        have : s ≠ [] := fun e => by
          have := hs.1.length_eq
          rw [e] at this
          simp at this
          exact h0 (List.length_eq_zero_iff.1 (by omega))
        exact Abrt.uniq_ne_nil this
    · rw [hl]; exact h0
  rw [if_neg (by simp [hne]), none1, none2] at h
  obtain ⟨ps, p, m', f, h1, h2, h3, h4, h5⟩ := h
  obtain ⟨rfl, rfl⟩ := told_zero h3
  exact .inr ⟨libs, ps, p, m', f, hl, h1, h2, h4, h5⟩

/-- C152: if the program is packaged, the epoch can be read and is not the greatest number, and some of the other files of the package cannot
be read, then the function fails, the package and the text of the epoch are freed, and there is one more message in memory for each of these
files. Only the last one is returned. -/
theorem C152_members (A : Allocator) (qsort : (Ptr → Ptr → Int) → List Ptr → List Ptr) (n : Nat) {d : Dir} {s : Str} (m : Mem) (e : Ptr)
    (hx : d.exist c!"package" = true) (h1 : d.contents c!"pkg_epoch" = some s) (h6 : (strtoull 10 s).value ≠ 2 ^ 64 - 1) (hu : 0 < unreadMembers d) :
    dirPackages A qsort n d m e = .abort ∨ ∃ m' e', dirPackages A qsort n d m e = .ok (false, 0, m', e') ∧ Told m e (unreadMembers d) m' e' := by
  rw [dirPackages, ownFile]
  rcases fileExist_spec A d c!"package" m with a | a
  · rw [a]; exact .inl rfl
  rw [a, bind_ok]
  dsimp only
  rw [hx, if_pos rfl]
  rcases new_spec A .package .null m with a | ⟨p, m₁, a, hb⟩
  · rw [a]; exact .inl rfl
  rw [a, bind_ok]
  dsimp only
  rw [packageFiles]
  rcases fileText_spec A d c!"pkg_epoch" m₁ e with a | hf
  · rw [a]; exact .inl rfl
  rw [h1] at hf
  obtain ⟨q, m₂, a, hq⟩ := hf
  rw [a, bind_ok]
  dsimp only
  rw [if_neg hq.1, readText_spec hq, bind_ok, if_neg h6, freeBlock_text hq, bind_ok]
  rcases packageMembers_spec A d (strtoull 10 s).value (b := m) (e₀ := e) .nil hb with a | ⟨m₃, e', ht, hk, _⟩
  · rw [a]; exact .inl rfl
  rw [hk hu, bind_ok, bind_ok]
  exact .inr ⟨m₃, e', by simp, by simpa using ht⟩

/-- C152: if the program is packaged and the epoch cannot be read, then the function fails, and the block of the package stays allocated
although nothing points to it. -/
theorem C152_not_epoch (A : Allocator) (qsort : (Ptr → Ptr → Int) → List Ptr → List Ptr) (n : Nat) {d : Dir} (m : Mem) (e : Ptr)
    (hx : d.exist c!"package" = true) (h1 : d.contents c!"pkg_epoch" = none) :
    dirPackages A qsort n d m e = .abort ∨ ∃ p z m', dirPackages A qsort n d m e = .ok (false, 0, m', z) ∧
      Adds m m' [p, z] ∧ m' p = some (newRecord .package) ∧ m' z = some (.text []) := by
  rw [dirPackages, ownFile]
  rcases fileExist_spec A d c!"package" m with a | a
  · rw [a]; exact .inl rfl
  rw [a, bind_ok]
  dsimp only
  rw [hx, if_pos rfl]
  rcases alloc_spec A (newRecord .package) m with a | ⟨p, a, p0, hp⟩
  · rw [a]; exact .inl rfl
  have p1 : m p = none := hp.fresh p (by simp)
  rw [a, bind_ok]
  dsimp only
  rw [packageFiles]
  rcases fileText_spec A d c!"pkg_epoch" (m.set p (some (newRecord .package))) e with a | hf
  · rw [a]; exact .inl rfl
  rw [h1] at hf
  obtain ⟨z, m₂, a, z0, z1, rfl⟩ := hf
  rw [a, bind_ok]
  dsimp only
  rw [if_pos rfl, bind_ok, bind_ok]
  have hne : z ≠ p := fun e => by rw [e, set_eq] at z1; cases z1
  refine .inr ⟨p, z, (m.set p (some (newRecord .package))).set z (some (.text [])), rfl, ⟨by simp [Ne.symm hne], ?_, ?_, ?_⟩, by rw [set_ne _ _ (Ne.symm hne), set_eq], by rw [set_eq]⟩
  · rw [set_ne _ _ hne] at z1
    simp [p1, z1]
  · simp [set_eq, set_ne _ _ (Ne.symm hne)]
  · intro x hx
    simp at hx
    rw [set_ne _ _ hx.2, set_ne _ _ hx.1]

/-- C152: if the program is packaged and the epoch is the greatest number or more, then the function fails, and the block of the package and
the text of the epoch stay allocated although nothing points to them. -/
theorem C152_not_range (A : Allocator) (qsort : (Ptr → Ptr → Int) → List Ptr → List Ptr) (n : Nat) {d : Dir} {s : Str} (m : Mem) (e : Ptr)
    (hx : d.exist c!"package" = true) (h1 : d.contents c!"pkg_epoch" = some s) (h2 : (strtoull 10 s).value = 2 ^ 64 - 1) :
    dirPackages A qsort n d m e = .abort ∨ ∃ p q z m', dirPackages A qsort n d m e = .ok (false, 0, m', z) ∧
      Adds m m' [p, q, z] ∧ m' p = some (newRecord .package) ∧ m' q = some (.text s) ∧ m' z = some (.text []) := by
  rw [dirPackages, ownFile]
  rcases fileExist_spec A d c!"package" m with a | a
  · rw [a]; exact .inl rfl
  rw [a, bind_ok]
  dsimp only
  rw [hx, if_pos rfl]
  rcases alloc_spec A (newRecord .package) m with a | ⟨p, a, p0, hp⟩
  · rw [a]; exact .inl rfl
  have p1 : m p = none := hp.fresh p (by simp)
  rw [a, bind_ok]
  dsimp only
  rw [packageFiles]
  rcases fileText_spec A d c!"pkg_epoch" (m.set p (some (newRecord .package))) e with a | hf
  · rw [a]; exact .inl rfl
  rw [h1] at hf
  obtain ⟨q, m₂, a, hq⟩ := hf
  rw [a, bind_ok]
  dsimp only
  rw [if_neg hq.1, readText_spec hq, bind_ok, if_pos h2]
  obtain ⟨q0, q1, rfl⟩ := hq
  have hne : q ≠ p := fun e => by rw [e, set_eq] at q1; cases q1
  rw [set_ne _ _ hne] at q1
  rcases newText A [] ((m.set p (some (newRecord .package))).set q (some (.text s))) with a | ⟨z, m₃, a, z0, z1, rfl⟩
  · rw [a]; exact .inl rfl
  rw [a, bind_ok, bind_ok, bind_ok]
  have hzq : z ≠ q := fun e => by rw [e, set_eq] at z1; cases z1
  rw [set_ne _ _ hzq] at z1
  have hzp : z ≠ p := fun e => by rw [e, set_eq] at z1; cases z1
  rw [set_ne _ _ hzp] at z1
  have v1 : (((m.set p (some (newRecord .package))).set q (some (.text s))).set z (some (.text []))) p = some (newRecord .package) := by
    rw [set_ne _ _ (Ne.symm hzp), set_ne _ _ (Ne.symm hne), set_eq]
  have v2 : (((m.set p (some (newRecord .package))).set q (some (.text s))).set z (some (.text []))) q = some (.text s) := by
    rw [set_ne _ _ (Ne.symm hzq), set_eq]
  refine .inr ⟨p, q, z, ((m.set p (some (newRecord .package))).set q (some (.text s))).set z (some (.text [])), rfl, ⟨by simp [Ne.symm hne, Ne.symm hzq, Ne.symm hzp], ?_, ?_, ?_⟩, v1, v2, by rw [set_eq]⟩
  · simp [p1, q1, z1]
  · simp [v1, v2, set_eq]
  · intro x hx
    simp at hx
    rw [set_ne _ _ hx.2.2, set_ne _ _ hx.2.1, set_ne _ _ hx.1]

/-! ## Cases -/

/-- A directory given by its files. -/
def filesOf (l : List (Str × Str)) : Dir where
  contents name := (l.find? fun x => x.1 = name).map (·.2)
  exist name := l.any fun x => x.1 = name

/-- A directory of a packaged program with a library and an interpreter. -/
def packaged152 : List (Str × Str) :=
  [(c!"package", c!"b-1-2"), (c!"pkg_epoch", c!"0"), (c!"pkg_name", c!"b\n"), (c!"pkg_version", c!"1"), (c!"pkg_release", c!"2"),
    (c!"pkg_arch", c!"i686"), (c!"dso_list", c!"/lib/a.so a-1:3-4.i686 (V) 7\n"), (c!"interpreter", c!"python-3-1.i686")]

/-- The result, the package at its address, the address of the message, and the addresses in use. -/
def seen152 (d : Dir) : Option (Bool × Option (Option Str × Ptr) × Ptr × List Ptr) :=
  match dirPackages firstFree insertionSort 99 d (fun _ => none) 0 with
  | .ok (b, p, m, e) => some (b, seen151 m p, e, (List.range 40).filter fun x => (m x).isSome)
  | _ => none

-- The hypotheses of `C152_packages_partial` and `C152_clean_partial` are met.
set_option maxRecDepth 20000 in
example : Own (filesOf packaged152) [{ name := some c!"b", epoch := 0, version := some c!"1", release := some c!"2", architecture := some c!"i686",
                                       role := .affected }] := by
  unfold Own
  rw [if_pos (by decide +kernel)]
  refine ⟨_, ⟨c!"0", c!"b\n", c!"1", c!"2", c!"i686", ?_, ?_, ?_, ?_, ?_, ?_, rfl⟩, ?_⟩ <;> decide +kernel

set_option maxRecDepth 20000 in
example : (match Rpm.parseDsoList c!"/lib/a.so a-1:3-4.i686 (V) 7\n" with
  | .ok l => l.length
  | _ => 0) = 1 ∧ Rpm.parseNevra c!"python-3-1.i686" ≠ .failDangling := by decide +kernel

set_option synthInstance.maxHeartbeats 400000 in
set_option synthInstance.maxSize 2000 in
set_option maxRecDepth 40000 in
example : seen152 (filesOf packaged152) = some (true, some (some c!"a", 1), 0, [1, 2, 3, 4, 5, 6, 8, 9, 10, 11, 12, 13, 14, 15, 16]) := by decide +kernel

-- Without the file of the epoch.
set_option synthInstance.maxHeartbeats 400000 in
set_option synthInstance.maxSize 2000 in
set_option maxRecDepth 40000 in
example : seen152 (filesOf (packaged152.filter fun x => x.1 ≠ c!"pkg_epoch")) = some (false, none, 3, [1, 3]) := by decide +kernel

-- Without the files of the version and the architecture: two messages, one of them lost.
set_option synthInstance.maxHeartbeats 400000 in
set_option synthInstance.maxSize 2000 in
set_option maxRecDepth 40000 in
example : seen152 (filesOf (packaged152.filter fun x => x.1 ≠ c!"pkg_version" ∧ x.1 ≠ c!"pkg_arch")) = some (false, none, 6, [4, 6]) := by decide +kernel

-- The epoch is too great.
set_option synthInstance.maxHeartbeats 400000 in
set_option synthInstance.maxSize 2000 in
set_option maxRecDepth 40000 in
example : seen152 (filesOf ((c!"pkg_epoch", c!"99999999999999999999") :: packaged152)) = some (false, none, 2, [1, 2, 3]) := by decide +kernel

-- The list of libraries and the name of the interpreter cannot be read: two messages, one of them lost.
set_option synthInstance.maxHeartbeats 400000 in
set_option synthInstance.maxSize 2000 in
set_option maxRecDepth 40000 in
example : seen152 { filesOf packaged152 with contents := fun n => if n = c!"dso_list" ∨ n = c!"interpreter" then none else (filesOf packaged152).contents n } =
    some (true, some (some c!"b", 0), 8, [1, 3, 4, 5, 6, 7, 8]) := by decide +kernel

end Satyr.Heap
