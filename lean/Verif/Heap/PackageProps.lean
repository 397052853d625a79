import Verif.Heap.PackageDso
import Verif.Heap.Props
import Verif.Rpm.Dso
/-!
# Lists of packages in memory

C151: memory after reading a list of packages from text, sorting it and merging its packages.
-/
namespace Satyr.Heap
open Satyr.CStr
open Satyr.Rpm (Package)

/-- C151: a list of packages is in memory in addition to `m₀`. Sorting it either stops for lack of memory, or gives a list of the same
packages in the order that `qsort` promises, in the same blocks of memory; memory is `m₀` with this list in addition. -/
theorem C151_sort_partial (A : Allocator) {qsort} (hq : IsQsort qsort) {n : Nat} {m₀ m : Mem} {l : List Package} {p : Ptr} {f : List Ptr}
    (h : Holds m (packChain l) true p f) (hA : Adds m₀ m f) (hl : l ≠ []) (hn : l.length < n) :
    packageSort A qsort n p m = .abort ∨ ∃ l' p' m' f', packageSort A qsort n p m = .ok (p', m') ∧ Rpm.QsortResult Rpm.cmpNevra l l' ∧
      Holds m' (packChain l') true p' f' ∧ f'.Perm f ∧ Adds m₀ m' f' := by
  obtain ⟨T, hT, rfl, rfl, rfl⟩ := row_of h hA
  rcases packageSort_spec A hq hT (by simpa using hl) (by simpa using hn) with e | ⟨T', m', e, hT', hp, hs⟩
  · exact .inl e
  · exact .inr ⟨T'.map Item.x, _, m', spread T', e, hs, hT'.holds, spread_perm hp, hT'.2.2⟩

/-- C151: merging the packages of a list either stops for lack of memory, or gives the list of the merged packages; memory is `m₀` with
this list in addition, so the packages merged are freed. -/
theorem C151_uniq (A : Allocator) {n : Nat} {m₀ m : Mem} {l : List Package} {p : Ptr} {f : List Ptr}
    (h : Holds m (packChain l) true p f) (hA : Adds m₀ m f) (hn : (packChain l).size < n) :
    packageUniq A n p m = .abort ∨ ∃ p' m' f', packageUniq A n p m = .ok (p', m') ∧ Holds m' (packChain (Rpm.uniq l)) true p' f' ∧ Adds m₀ m' f' := by
  obtain ⟨T, hT, rfl, rfl, rfl⟩ := row_of h hA
  rw [packageUniq]
  cases T with
  | nil =>
    refine .inr ⟨0, m, [], ?_, ⟨rfl, rfl⟩, hA⟩
    obtain ⟨n, rfl⟩ : ∃ k, n = k + 1 := ⟨n - 1, by omega⟩
    rw [List.map_nil, List.headD_nil, uniqLoop, if_pos rfl]
  | cons t R =>
    obtain ⟨s1, s2⟩ := packChain_size ((t :: R).map Item.x)
    have := uniqLoop_spec A (n := n) R [] t n m₀ m (by rw [List.length_map, List.length_cons] at s1; omega) hT fun s hs => by
      have := s2 s.x (List.mem_map.2 ⟨s, hs, rfl⟩)
      omega
    rcases this with e | ⟨T', m', e, hT', hx⟩
    · exact .inl e
    · refine .inr ⟨_, m', spread T', e, ?_, hT'.2.2⟩
      have hx : T'.map Item.x = Rpm.uniq ((t :: R).map Item.x) := by simpa [Rpm.uniq] using hx
      rw [← hx]
      exact hT'.holds

/-- C151: if a list of shared libraries with their packages can be read, then either the program stops for lack of memory, or the memory
added is the list of the packages that the text says, and nothing else. -/
theorem C151_dso_partial (A : Allocator) (text : Str) (m : Mem) {l : List Package} (hl : Rpm.parseDsoList text = .ok l) :
    dsoPackages A text m = .abort ∨ ∃ p m' f, dsoPackages A text m = .ok (p, m') ∧ Holds m' (packageChain l) true p f ∧ Adds m m' f := by
  rcases dsoList_spec A (n := text.length) text.length text [] l 0 m (by simp) hl ⟨[], ⟨rfl, rfl⟩, .refl m⟩ with e | ⟨p, m', e, f, h1, h2⟩
  · exact .inl e
  · exact .inr ⟨p, m', f, e, h1, h2⟩

/-! ## From the text to the end -/

theorem packChain_plain : ∀ {l : List Package}, (∀ x ∈ l, x.consistency = []) → packChain l = packageChain l
  | [], _ => rfl
  | x :: l, h => by
    have hw : wholePackage x = packagePart x := by rw [wholePackage, h x (by simp)]; rfl
    rw [packChain_cons, packChain_plain (l := l) fun y hy => h y (by simp [hy]), hw]
    rfl

theorem dsoLoop_plain : ∀ (fuel : Nat) (pos : Str) {l : List Package}, Rpm.dsoLoop fuel pos = .ok l → l.length ≤ fuel ∧ ∀ x ∈ l, x.consistency = []
  | 0, _, l, h => by cases h; simp
  | fuel + 1, pos, l, h => by
    have weaken : ∀ {s : Str} {l : List Package}, Rpm.dsoLoop fuel s = .ok l → l.length ≤ fuel + 1 ∧ ∀ x ∈ l, x.consistency = [] := fun h => by
      have := dsoLoop_plain fuel _ h
      exact ⟨by omega, this.2⟩
    rw [Rpm.dsoLoop] at h
    split at h
    · cases h; simp
    split at h
    · cases h; simp
    dsimp only at h
    split at h
    · exact weaken h
    split at h
    · exact weaken h
    split at h
    · cases h
    · exact weaken h
    split at h
    · cases h; simp
    split at h
    · exact weaken h
    obtain ⟨t, _, h⟩ := bind_ok_iff.1 h
    obtain ⟨len, time, rest⟩ := t
    dsimp only at h
    split at h
    · exact weaken h
    obtain ⟨l', h1, h⟩ := bind_ok_iff.1 h
    cases h
    obtain ⟨h2, h3⟩ := dsoLoop_plain fuel _ h1
    refine ⟨by simpa using h2, fun x hx => ?_⟩
    rcases List.mem_cons.1 hx with rfl | hx
    · rfl
    · exact h3 x hx

theorem uniqLoop_plain : ∀ (l : List Package) (x : Package), (∀ y ∈ x :: l, y.consistency = []) →
    (Rpm.uniqLoop x l).length ≤ l.length + 1 ∧ ∀ y ∈ Rpm.uniqLoop x l, y.consistency = []
  | [], x, h => ⟨by simp [Rpm.uniqLoop], by simpa [Rpm.uniqLoop] using h⟩
  | u :: l, x, h => by
    rw [Rpm.uniqLoop]
    cases hm : Rpm.merge x u with
    | none =>
      obtain ⟨h1, h2⟩ := uniqLoop_plain l u fun y hy => h y (by simp at hy ⊢; tauto)
      refine ⟨by simpa using h1, fun y hy => ?_⟩
      rcases List.mem_cons.1 hy with rfl | hy
      · exact h y (by simp)
      · exact h2 y hy
    | some z =>
      have hz : z.consistency = [] := by
        unfold Rpm.merge at hm
        split at hm
        · cases hm
        split at hm
        · cases hm
        split at hm
        · cases hm
        cases hm
        rfl
      obtain ⟨h1, h2⟩ := uniqLoop_plain l z fun y hy => by
        rcases List.mem_cons.1 hy with rfl | hy
        · exact hz
        · exact h y (by simp [hy])
      exact ⟨by simp; omega, h2⟩

/-- Reading a list of packages from text, sorting it, merging its packages and freeing the result. -/
def throughout (A : Allocator) (qsort : (Ptr → Ptr → Int) → List Ptr → List Ptr) (text : Str) (m : Mem) : Out Mem :=
  (dsoPackages A text m).bind fun (p, m) =>
  (packageSort A qsort (text.length + 2) p m).bind fun (p, m) =>
  (packageUniq A (text.length + 2) p m).bind fun (p, m) => free (text.length + 2) p true m

/-- C151: if a list that is not empty is read from text, sorted, merged and freed, then either the program stops for lack of memory, or
memory is as before: nothing is lost, and nothing is freed twice. -/
theorem C151_throughout_partial (A : Allocator) {qsort} (hq : IsQsort qsort) (text : Str) (m : Mem) {l : List Package} (hl : Rpm.parseDsoList text = .ok l)
    (h0 : l ≠ []) : throughout A qsort text m = .abort ∨ throughout A qsort text m = .ok m := by
  obtain ⟨d1, d2⟩ := dsoLoop_plain text.length text hl
  rw [throughout]
  rcases C151_dso_partial A text m hl with e | ⟨p, m₁, f, e, h1, h2⟩
  · rw [e]; exact .inl rfl
  rw [e, bind_ok]
  dsimp only
  rw [← packChain_plain d2] at h1
  rcases C151_sort_partial A hq h1 h2 h0 (n := text.length + 2) (by omega) with e | ⟨l', p', m₂, f', e, hs, h3, _, h4⟩
  · rw [e]; exact .inl rfl
  rw [e, bind_ok]
  dsimp only
  have c' : ∀ x ∈ l', x.consistency = [] := fun x hx => d2 x (hs.1.subset hx)
  have n' : l'.length ≤ text.length := by rw [hs.1.length_eq]; exact d1
  rcases C151_uniq A h3 h4 (n := text.length + 2) (by rw [packChain_plain c', (packageChain_spec l').2]; omega) with e | ⟨p'', m₃, f'', e, h5, h6⟩
  · rw [e]; exact .inl rfl
  rw [e, bind_ok]
  dsimp only
  have u : (Rpm.uniq l').length ≤ l'.length ∧ ∀ y ∈ Rpm.uniq l', y.consistency = [] := by
    cases l' with
    | nil => simp [Rpm.uniq]
    | cons x l' => exact uniqLoop_plain l' x c'
  rw [packChain_plain u.2] at h5
  have hc : ∀ l : List Package, (packageChain l).ConstantReporter := by
    intro l
    induction l with
    | nil => trivial
    | cons x l ih => exact ⟨fun e => (by cases e), ih⟩
  refine .inr ?_
  rw [free_spec _ _ true p'' f'' m₃ [.package] (by rw [(packageChain_spec _).2]; omega) (packageChain_spec _).1 (hc _) h5 h6.nodup, h6.erase]

/-! ## Packages that are refused -/

/-- C151: if the epoch is not a number, the release and the architecture of the package are freed twice. -/
theorem C151_not_dso : dsoPackages firstFree c!"/lib/a.so a-x:1-2.i686 (V) 1\n" (fun _ => none) = .ub := by with_unfolding_all rfl

/-- C151: a list without packages cannot be sorted: the array has no elements, and the first one is read. -/
theorem C151_not_sort (A : Allocator) (qsort : (Ptr → Ptr → Int) → List Ptr → List Ptr) (n : Nat) (m : Mem) :
    Holds m (packChain []) true 0 [] ∧ packageSort A qsort (n + 1) 0 m = .ub := ⟨⟨rfl, rfl⟩, rfl⟩

/-! ## A case -/

/-- The place of an element in a sorted list. -/
def insertAt (c : Ptr → Ptr → Int) (x : Ptr) : List Ptr → List Ptr
  | [] => [x]
  | y :: l => if c x y ≤ 0 then x :: y :: l else y :: insertAt c x l

/-- A function that does what the standard says of `qsort`. -/
def insertionSort (c : Ptr → Ptr → Int) : List Ptr → List Ptr
  | [] => []
  | x :: l => insertAt c x (insertionSort c l)

theorem insertAt_perm (c : Ptr → Ptr → Int) (x : Ptr) : ∀ l, (insertAt c x l).Perm (x :: l)
  | [] => .refl _
  | y :: l => by
    rw [insertAt]
    split
    · exact .refl _
    · exact ((insertAt_perm c x l).cons y).trans (.swap x y l)

theorem insertAt_sorted {c : Ptr → Ptr → Int} {S : Ptr → Prop} (h1 : ∀ a b, S a → S b → Int.sign (c b a) = - Int.sign (c a b))
    (h2 : ∀ a b d, S a → S b → S d → c a b ≤ 0 → c b d ≤ 0 → c a d ≤ 0) {x : Ptr} (hx : S x) : ∀ {l : List Ptr}, (∀ y ∈ l, S y) →
    l.Pairwise (fun a b => c a b ≤ 0) → (insertAt c x l).Pairwise (fun a b => c a b ≤ 0)
  | [], _, _ => List.pairwise_singleton _ _
  | y :: l, hl, h => by
    obtain ⟨hy, h⟩ := List.pairwise_cons.1 h
    rw [insertAt]
    split
    · rename_i hxy
      refine List.pairwise_cons.2 ⟨fun z hz => ?_, List.pairwise_cons.2 ⟨hy, h⟩⟩
      rcases List.mem_cons.1 hz with rfl | hz
      · exact hxy
      · exact h2 x y z hx (hl y (by simp)) (hl z (by simp [hz])) hxy (hy z hz)
    · rename_i hxy
      refine List.pairwise_cons.2 ⟨fun z hz => ?_, insertAt_sorted h1 h2 hx (fun z hz => hl z (by simp [hz])) h⟩
      rcases List.mem_cons.1 ((insertAt_perm c x l).subset hz) with rfl | hz
      · have := h1 z y hx (hl y (by simp))
        rw [Int.sign_eq_one_of_pos (by omega : 0 < c z y)] at this
        have := Int.sign_eq_neg_one_iff_neg.1 this
        omega
      · exact hy z hz

theorem insertionSort_perm (c : Ptr → Ptr → Int) : ∀ l, (insertionSort c l).Perm l
  | [] => .refl _
  | x :: l => (insertAt_perm c x _).trans ((insertionSort_perm c l).cons x)

theorem insertionSort_spec : IsQsort insertionSort := by
  refine fun c l => ⟨insertionSort_perm c l, fun h1 h2 => ?_⟩
  have key : ∀ k : List Ptr, (∀ x ∈ k, x ∈ l) → (insertionSort c k).Pairwise fun a b => c a b ≤ 0 := by
    intro k
    induction k with
    | nil => exact fun _ => .nil
    | cons x k ih =>
      intro hk
      exact insertAt_sorted (S := (· ∈ l)) (fun a b ha hb => h1 a ha b hb) (fun a b d ha hb hd => h2 a ha b hb d hd) (hk x (by simp))
        (fun y hy => hk y (by simp [(insertionSort_perm c k).subset hy])) (ih fun y hy => hk y (by simp [hy]))
  exact key l fun _ h => h

/-- Three packages, two of them the same. -/
def threeLines : Str := c!"/lib/b.so b-1-2.i686 (V) 5\n/lib/a.so a-1:3-4.i686 (V) 7\n/lib/c.so b-1-2.i686 (V) 0\n"

/-- What the memory at an address is. -/
def seen151 (m : Mem) (p : Ptr) : Option (Option Str × Ptr) :=
  match readPackage m p, readRecord m p with
  | .ok x, .ok r => some (x.name, r.next)
  | _, _ => none

set_option maxRecDepth 20000 in
example : (match Rpm.parseDsoList threeLines with
  | .ok l => l.map fun x => (x.name, x.epoch, x.installTime)
  | _ => []) = [(some c!"b", 0, 5), (some c!"a", 1, 7), (some c!"b", 0, 0)] := by decide +kernel

set_option maxRecDepth 20000 in
example : (match dsoPackages firstFree threeLines (fun _ => none) with
  | .ok (p, m) => (p, seen151 m p, (List.range 30).filter fun x => (m x).isSome)
  | _ => (0, none, [])) = (2, some (some c!"b", 7), [2, 3, 4, 5, 6, 7, 8, 9, 10, 11, 12, 13, 14, 15, 16]) := by decide +kernel

set_option maxRecDepth 20000 in
example : (match (dsoPackages firstFree threeLines (fun _ => none)).bind fun (p, m) => packageSort firstFree insertionSort 9 p m with
  | .ok (p, m) => (p, seen151 m p, (List.range 30).filter fun x => (m x).isSome)
  | _ => (0, none, [])) = (7, some (some c!"a", 2), [2, 3, 4, 5, 6, 7, 8, 9, 10, 11, 12, 13, 14, 15, 16]) := by decide +kernel

set_option maxRecDepth 20000 in
example : (match ((dsoPackages firstFree threeLines (fun _ => none)).bind fun (p, m) => packageSort firstFree insertionSort 9 p m).bind
    fun (p, m) => packageUniq firstFree 9 p m with
  | .ok (p, m) => (p, seen151 m p, (List.range 30).filter fun x => (m x).isSome)
  | _ => (0, none, [])) = (7, some (some c!"a", 1), [1, 7, 8, 9, 10, 11, 17, 18, 19, 20]) := by decide +kernel

end Satyr.Heap
