import Verif.Heap.PackageModel
import Verif.Heap.GdbTextFrames
import Mathlib.Data.List.Flatten
/-!
# Lists of packages in memory
-/
namespace Satyr.Heap
open Satyr.CStr
open Satyr.Rpm (Package Consistency)

/-! ## Specification -/

/-- The consistency records of a package. -/
def consistencyChain : List Consistency → Chain
  | [] => .nil
  | c :: l => .cons .consistency [bit c.ownerChanged, bit c.groupChanged, bit c.modeChanged, bit c.md5Mismatch, bit c.sizeChanged,
      bit c.majorNumberChanged, bit c.minorNumberChanged, bit c.symlinkChanged, bit c.modificationTimeChanged] [c.path] 0 .nil .nil .nil .nil
      (consistencyChain l)

/-- A package with its consistency records. -/
def wholePackage (x : Package) : Part := { packagePart x with a := consistencyChain x.consistency }

/-- A list of packages. -/
def packChain (l : List Package) : Chain := chainsOf (l.map fun x => (wholePackage x).chain .package 0)

/-! ## Packages one by one -/

/-- A package with its address and the addresses of its memory. -/
structure Item where
  p : Ptr
  x : Package
  f : List Ptr

/-- The package is in memory. -/
def Item.In (m : Mem) (t : Item) : Prop := Holds m ((wholePackage t.x).chain .package 0) false t.p t.f

/-- Every structure points to the next one, the last to `z`. -/
def Seg (m : Mem) : List Ptr → Ptr → Prop
  | [], _ => True
  | p :: l, z => (∃ r, m p = some (.record r) ∧ r.next = l.headD z) ∧ Seg m l z

/-- The memory of packages. -/
def spread (T : List Item) : List Ptr := T.flatMap Item.f

/-- Memory `m` is memory `m₀` with a list of packages in addition. -/
def Row (m₀ m : Mem) (T : List Item) : Prop := (∀ t ∈ T, t.In m) ∧ Seg m (T.map Item.p) 0 ∧ Adds m₀ m (spread T)

theorem headD_append (a b : List Ptr) (z : Ptr) : (a ++ b).headD z = a.headD (b.headD z) := by cases a <;> rfl

theorem seg_append {m : Mem} {b : List Ptr} {z : Ptr} : ∀ {a : List Ptr}, Seg m (a ++ b) z ↔ Seg m a (b.headD z) ∧ Seg m b z
  | [] => by simp [Seg]
  | p :: a => by
    rw [List.cons_append, Seg, Seg, seg_append (a := a), headD_append]
    exact and_assoc.symm

theorem Seg.congr {m m' : Mem} : ∀ {l : List Ptr} {z : Ptr}, Seg m l z → (∀ x ∈ l, m' x = m x) → Seg m' l z
  | [], _, _, _ => trivial
  | p :: l, z, ⟨⟨r, h1, h2⟩, h3⟩, h => ⟨⟨r, by rw [h p (by simp), h1], h2⟩, h3.congr fun x hx => h x (by simp [hx])⟩

theorem Item.In.own {m : Mem} {t : Item} (h : t.In m) : t.p ∈ t.f := by
  obtain ⟨r, fs, fa, fb, fc, fe, fn, h0, h1, h2, h3, h4, h5, ha, hb, hc, he, hn, e⟩ := h
  rw [e]; simp

theorem Item.In.ne {m : Mem} {t : Item} (h : t.In m) : t.p ≠ 0 := by
  obtain ⟨r, fs, fa, fb, fc, fe, fn, h0, _⟩ := h
  exact h0

theorem Item.In.record {m : Mem} {t : Item} (h : t.In m) : ∃ r, m t.p = some (.record r) := by
  obtain ⟨r, fs, fa, fb, fc, fe, fn, h0, h1, _⟩ := h
  exact ⟨r, h1⟩

theorem Item.In.congr {m m' : Mem} {t : Item} (h : t.In m) (hm : ∀ x ∈ t.f, m' x = m x) : t.In m' := Holds.congr h hm

/-- The pointer to the next package does not belong to a package. -/
theorem Item.In.next {m m' : Mem} {t : Item} {r : Record} {q : Ptr} (h : t.In m) (hf : t.f.Nodup) (hm : ∀ x ∈ t.f, x ≠ t.p → m' x = m x)
    (hr : m t.p = some (.record r)) (hp : m' t.p = some (.record { r with next := q })) : t.In m' := by
  obtain ⟨r', fs, fa, fb, fc, fe, fn, h0, h1, h2, h3, h4, h5, ha, hb, hc, he, hn, e⟩ := h
  rw [hr] at h1
  cases h1
  rw [e] at hf
  have hp' := (List.nodup_cons.1 hf).1
  have keep : ∀ {l : List Ptr}, (∀ x ∈ l, x ∈ fs ++ (fa ++ (fb ++ (fc ++ (fe ++ fn))))) → ∀ x ∈ l, m' x = m x :=
    fun hl x hx => hm x (by rw [e]; exact List.mem_cons_of_mem _ (hl x hx)) fun e' => hp' (e' ▸ hl x hx)
  rw [if_neg (by simp)] at hn
  refine ⟨_, fs, fa, fb, fc, fe, fn, h0, hp, h2, h3, h4, h5.congr (keep (by simp +contextual)), ha.congr (keep (by simp +contextual)),
    hb.congr (keep (by simp +contextual)), hc.congr (keep (by simp +contextual)), he.congr (keep (by simp +contextual)), ?_, e⟩
  rw [if_neg (by simp)]
  exact hn

theorem apart : ∀ {T : List Item} {t s : Item} {x : Ptr}, (spread T).Nodup → t ∈ T → s ∈ T → x ∈ t.f → x ∈ s.f → t = s
  | [], _, _, _, _, ht, _, _, _ => by cases ht
  | u :: T, t, s, x, h, ht, hs, hxt, hxs => by
    rw [spread, List.flatMap_cons, List.nodup_append] at h
    obtain ⟨_, h2, h3⟩ := h
    have hmem : ∀ {v : Item}, v ∈ T → x ∈ v.f → x ∈ T.flatMap Item.f := fun hv hx => List.mem_flatMap.2 ⟨_, hv, hx⟩
    rcases List.mem_cons.1 ht with ht | ht <;> rcases List.mem_cons.1 hs with hs | hs
    · rw [ht, hs]
    · exact absurd rfl (h3 x (ht ▸ hxt) x (hmem hs hxs))
    · exact absurd rfl (h3 x (hs ▸ hxs) x (hmem ht hxt))
    · exact apart h2 ht hs hxt hxs

theorem spread_nodup {T : List Item} {t : Item} (h : (spread T).Nodup) (ht : t ∈ T) : t.f.Nodup := (List.nodup_flatMap.1 h).1 t ht

theorem addresses_nodup : ∀ {T : List Item}, (spread T).Nodup → (∀ t ∈ T, t.p ∈ t.f) → (T.map Item.p).Nodup
  | [], _, _ => List.nodup_nil
  | t :: T, h, hp => by
    rw [spread, List.flatMap_cons, List.nodup_append] at h
    rw [List.map_cons, List.nodup_cons]
    refine ⟨fun hm => ?_, addresses_nodup h.2.1 fun s hs => hp s (by simp [hs])⟩
    obtain ⟨s, hs, e⟩ := List.mem_map.1 hm
    exact h.2.2 t.p (hp t (by simp)) t.p (List.mem_flatMap.2 ⟨s, hs, by rw [← e]; exact hp s (by simp [hs])⟩) rfl

theorem packChain_cons (x : Package) (l : List Package) : packChain (x :: l) =
    .cons .package (wholePackage x).data (wholePackage x).texts 0 (wholePackage x).a .nil .nil .nil (packChain l) := rfl

/-- A list is its packages one by one. -/
theorem row_of {m₀ m : Mem} {l : List Package} {p : Ptr} {f : List Ptr} (h : Holds m (packChain l) true p f) (hA : Adds m₀ m f) :
    ∃ T, Row m₀ m T ∧ T.map Item.x = l ∧ (T.map Item.p).headD 0 = p ∧ spread T = f := by
  have key : ∀ {l : List Package} {p : Ptr} {f : List Ptr}, Holds m (packChain l) true p f →
      ∃ T : List Item, (∀ t ∈ T, t.In m) ∧ Seg m (T.map Item.p) 0 ∧ spread T = f ∧ T.map Item.x = l ∧ (T.map Item.p).headD 0 = p := by
    intro l
    induction l with
    | nil =>
      rintro p f ⟨rfl, rfl⟩
      exact ⟨[], by simp, trivial, rfl, rfl, rfl⟩
    | cons x l ih =>
      intro p f h
      rw [packChain_cons] at h
      obtain ⟨r, g, fn, h1, h0, hpg, hg, hn, rfl⟩ := h.split
      obtain ⟨T, t1, t2, t3, t4, t5⟩ := ih hn
      refine ⟨⟨p, x, g⟩ :: T, ?_, ⟨⟨r, h1, t5.symm⟩, t2⟩, by rw [spread, List.flatMap_cons]; exact congrArg _ t3, by simp [t4], rfl⟩
      intro t ht
      rcases List.mem_cons.1 ht with rfl | ht
      · exact hg
      · exact t1 t ht
  obtain ⟨T, t1, t2, t3, t4, t5⟩ := key h
  exact ⟨T, ⟨t1, t2, by rw [t3]; exact hA⟩, t4, t5, t3⟩

theorem Row.holds {m₀ m : Mem} {T : List Item} (h : Row m₀ m T) :
    Holds m (packChain (T.map Item.x)) true ((T.map Item.p).headD 0) (spread T) := by
  obtain ⟨h1, h2, h4⟩ := h
  clear h4
  induction T with
  | nil => exact ⟨rfl, rfl⟩
  | cons t T ih =>
    have h3 := ih (fun s hs => h1 s (by simp [hs])) h2.2
    obtain ⟨⟨r', hr1, hr2⟩, _⟩ := h2
    obtain ⟨r, fs, fa, fb, fc, fe, fn, g0, g1, g2, g3, g4, g5, ha, hb, hc, he, hn, e⟩ := h1 t (by simp)
    rw [show m t.p = _ from hr1] at g1
    cases g1
    rw [if_neg (by simp)] at hn
    obtain ⟨_, rfl⟩ := hn
    rw [List.map_cons, packChain_cons]
    refine ⟨r', fs, fa, fb, fc, fe, spread T, g0, hr1, g2, g3, g4, g5, ha, hb, hc, he, ?_, ?_⟩
    · rw [if_pos rfl, hr2]; exact h3
    · rw [spread, List.flatMap_cons, e]
      simp [spread]

/-! ## Reading packages -/

theorem readOpt_spec {m : Mem} {ss ps f} (h : Texts m ss ps f) (i : Nat) (hi : i < ss.length) : readOpt m (ps.getD i 0) = .ok (ss.getD i none) := by
  induction h generalizing i with
  | nil => simp at hi
  | null h ih =>
    cases i with
    | zero => simp [readOpt]
    | succ i => exact ih i (by simpa using hi)
  | some h0 h1 h ih =>
    cases i with
    | zero =>
      show readOpt m _ = _
      rw [List.getD_cons_zero, readOpt, if_neg h0, readText, h1]
      rfl
    | succ i => exact ih i (by simpa using hi)

/-- What is read of a package. -/
theorem readPackage_spec {m : Mem} {t : Item} (h : t.In m) : readPackage m t.p = .ok { t.x with consistency := [] } := by
  obtain ⟨r, fs, fa, fb, fc, fe, fn, h0, h1, h2, h3, h4, h5, ha, hb, hc, he, hn, e⟩ := h
  have hl : (wholePackage t.x).texts.length = 4 := rfl
  rw [readPackage, readRecord, h1]
  dsimp only
  rw [bind_ok, readOpt_spec h5 0 (by omega), bind_ok, readOpt_spec h5 1 (by omega), bind_ok, readOpt_spec h5 2 (by omega), bind_ok,
    readOpt_spec h5 3 (by omega), bind_ok, h3]
  have hx : t.x = ⟨t.x.name, t.x.epoch, t.x.version, t.x.release, t.x.architecture, t.x.installTime, t.x.role, t.x.consistency⟩ := rfl
  cases hr : t.x.role <;> simp [wholePackage, packagePart, hr]

theorem cmp_plain (x y : Package) : Rpm.cmpNevra { x with consistency := [] } { y with consistency := [] } = Rpm.cmpNevra x y := rfl

theorem compareAt_spec {m : Mem} {t s : Item} (ht : t.In m) (hs : s.In m) : compareAt m t.p s.p = Rpm.cmpNevra t.x s.x := by
  rw [compareAt, readPackage_spec ht, readPackage_spec hs]
  exact cmp_plain t.x s.x

/-! ## Sorting -/

theorem addresses_spec {m : Mem} : ∀ (l : List Ptr) (n : Nat), Seg m l 0 → (∀ p ∈ l, p ≠ 0) → l.length < n → addresses n (l.headD 0) m = .ok l
  | [], n + 1, _, _, _ => by rw [List.headD_nil, addresses, if_pos rfl]
  | p :: l, n + 1, ⟨⟨r, h1, h2⟩, h3⟩, h0, hn => by
    rw [List.headD_cons, addresses, if_neg (h0 p (by simp)), readRecord, h1]
    dsimp only
    rw [bind_ok, h2, addresses_spec l n h3 (fun q hq => h0 q (by simp [hq])) (by simpa using hn), bind_ok]

theorem readAll_spec {m : Mem} : ∀ T : List Item, (∀ t ∈ T, t.In m) → readAllPackages m (T.map Item.p) = .ok ()
  | [], _ => rfl
  | t :: T, h => by
    rw [List.map_cons, readAllPackages, readPackage_spec (h t (by simp)), bind_ok]
    exact readAll_spec T fun s hs => h s (by simp [hs])

theorem relink_spec : ∀ (l : List Ptr) (m : Mem), l.Nodup → (∀ p ∈ l, ∃ r, m p = some (.record r)) → ∃ m', relink l m = .ok m' ∧ Seg m' l 0 ∧
    (∀ x, x ∉ l → m' x = m x) ∧ ∀ p ∈ l, ∀ r, m p = some (.record r) → ∃ q, m' p = some (.record { r with next := q })
  | [], m, _, _ => ⟨m, rfl, trivial, fun _ _ => rfl, by simp⟩
  | p :: l, m, hl, h => by
    obtain ⟨hp, hl⟩ := List.nodup_cons.1 hl
    obtain ⟨r, hr⟩ := h p (by simp)
    have hne : ∀ {x : Ptr} (c : Option Cell), x ∈ l → m.set p c x = m x := fun c hx => set_ne _ _ fun e => hp (e ▸ hx)
    obtain ⟨m', e1, e2, e3, e4⟩ := relink_spec l (m.set p (some (.record { r with next := l.headD 0 }))) hl fun x hx => by
      rw [hne _ hx]; exact h x (by simp [hx])
    have hp' : m' p = some (.record { r with next := l.headD 0 }) := by rw [e3 p hp, set_eq]
    refine ⟨m', by rw [relink, readRecord, hr]; dsimp only; rw [bind_ok, writeRecord, hr]; dsimp only; rw [bind_ok, e1], ⟨⟨_, hp', rfl⟩, e2⟩,
      fun x hx => ?_, fun x hx s hs => ?_⟩
    · rw [e3 x fun h => hx (by simp [h]), set_ne _ _ fun e => hx (by simp [e])]
    · by_cases c : x = p
      · subst c
        rw [hr] at hs
        cases hs
        exact ⟨_, hp'⟩
      · have hx : x ∈ l := by simpa [c] using hx
        exact e4 x hx s (by rw [hne _ hx, hs])

theorem perm_lift {α β : Type} (f : α → β) {l' l : List β} (h : l'.Perm l) : ∀ T : List α, T.map f = l → ∃ T' : List α, T'.Perm T ∧ T'.map f = l' := by
  induction h with
  | nil => intro T h; exact ⟨T, .refl _, h⟩
  | cons x h ih =>
    intro T hT
    cases T with
    | nil => cases hT
    | cons t T =>
      rw [List.map_cons, List.cons.injEq] at hT
      obtain ⟨T', h1, h2⟩ := ih T hT.2
      exact ⟨t :: T', h1.cons t, by rw [List.map_cons, h2, hT.1]⟩
  | swap x y l =>
    intro T hT
    match T, hT with
    | a :: b :: T, hT =>
      rw [List.map_cons, List.map_cons, List.cons.injEq, List.cons.injEq] at hT
      exact ⟨b :: a :: T, .swap a b T, by rw [List.map_cons, List.map_cons, hT.1, hT.2.1, hT.2.2]⟩
  | trans h1 h2 ih1 ih2 =>
    intro T hT
    obtain ⟨T₂, a1, a2⟩ := ih2 T hT
    obtain ⟨T₁, b1, b2⟩ := ih1 T₂ a2
    exact ⟨T₁, b1.trans a1, b2⟩

theorem spread_perm {T T' : List Item} (h : T'.Perm T) : (spread T').Perm (spread T) := h.flatMap_right _

/-- A block above a list is freed. -/
theorem Row.drop {m₀ m₁ m : Mem} {T : List Item} {q : Ptr} {s : Str} (hq : Holding m₀ q s m₁) (h : Row m₁ m T) :
    freeBlock m q = .ok (erase m [q]) ∧ Row m₀ (erase m [q]) T := by
  obtain ⟨h0, h1, rfl⟩ := hq
  obtain ⟨t1, t2, hA⟩ := h
  have hqf : q ∉ spread T := fun hx => by
    have := hA.fresh q hx
    rw [set_eq] at this
    cases this
  have hq : m q = some (.text s) := by rw [hA.same q hqf, set_eq]
  have keep : ∀ x, x ≠ q → erase m [q] x = m x := fun x hx => if_neg (by simpa using hx)
  have hne : ∀ x ∈ spread T, x ≠ q := fun x hx e => hqf (e ▸ hx)
  have hmem : ∀ {t : Item} {x : Ptr}, t ∈ T → x ∈ t.f → x ∈ spread T := fun ht hx => List.mem_flatMap.2 ⟨_, ht, hx⟩
  refine ⟨freeBlock_spec h0 (by rw [hq]; simp), fun t ht => (t1 t ht).congr fun x hx => keep x (hne x (hmem ht hx)), t2.congr fun x hx => ?_,
    hA.nodup, fun x hx => ?_, fun x hx => ?_, fun x hx => ?_⟩
  · obtain ⟨t, ht, rfl⟩ := List.mem_map.1 hx
    exact keep _ (hne _ (hmem ht (t1 t ht).own))
  · have := hA.fresh x hx
    rwa [set_ne _ _ (hne x hx)] at this
  · rw [keep x (hne x hx)]; exact hA.used x hx
  · by_cases c : x = q
    · rw [c, h1]; simp [erase]
    · rw [keep x c, hA.same x hx, set_ne _ _ c]

/-- `qsort` does what the standard says. -/
def IsQsort (qsort : (Ptr → Ptr → Int) → List Ptr → List Ptr) : Prop := ∀ c l, Rpm.QsortResult c l (qsort c l)

theorem packageSort_spec (A : Allocator) {qsort} (hq : IsQsort qsort) {n : Nat} {m₀ m : Mem} {T : List Item} (h : Row m₀ m T) (hT : T ≠ [])
    (hn : T.length < n) : packageSort A qsort n ((T.map Item.p).headD 0) m = .abort ∨
    ∃ (T' : List Item) (m' : Mem), packageSort A qsort n ((T.map Item.p).headD 0) m = Out.ok ((T'.map Item.p).headD 0, m') ∧ Row m₀ m' T' ∧ T'.Perm T ∧
      Rpm.QsortResult Rpm.cmpNevra (T.map Item.x) (T'.map Item.x) := by
  obtain ⟨t1, t2, hA⟩ := h
  rw [packageSort, addresses_spec _ n t2 (fun p hp => by obtain ⟨t, ht, rfl⟩ := List.mem_map.1 hp; exact (t1 t ht).ne) (by simpa using hn), bind_ok,
    if_neg (by simpa using hT)]
  rcases newText A [] m with e | ⟨q, m₁, e, hq1⟩
  · rw [e]; exact .inl rfl
  rw [e, bind_ok]
  dsimp only
  have hA1 : Adds m m₁ [q] := hq1.adds
  have s1 : ∀ t ∈ T, t.In m₁ := fun t ht => Holds.ext (t1 t ht) hA1.ext
  rw [readAll_spec T s1, bind_ok]
  obtain ⟨hperm, hsort⟩ := hq (compareAt m₁) (T.map Item.p)
  obtain ⟨T', p1, p2⟩ := perm_lift Item.p hperm T rfl
  have hnd : (T'.map Item.p).Nodup := by
    rw [p2, hperm.nodup_iff]
    exact addresses_nodup hA.nodup fun t ht => (t1 t ht).own
  have s2 : ∀ t ∈ T', t.In m₁ := fun t ht => s1 t (p1.subset ht)
  obtain ⟨m₂, e1, e2, e3, e4⟩ := relink_spec (T'.map Item.p) m₁ hnd fun p hp => by
    obtain ⟨t, ht, rfl⟩ := List.mem_map.1 hp
    exact (s2 t ht).record
  rw [← p2, e1, bind_ok]
  have hA2 : Adds m₀ m (spread T') := hA.perm (spread_perm p1).symm
  have hA3 : Adds (m₀.set q (some (.text []))) m₁ (spread T') := by
    have := hA2.trans hA1
    refine Adds.fewer this ?_
    rw [hq1.2.2, set_eq]
  have hin : ∀ {t : Item} {x : Ptr}, t ∈ T' → x ∈ t.f → x ∈ spread T' := fun ht hx => List.mem_flatMap.2 ⟨_, ht, hx⟩
  have hpin : ∀ x ∈ T'.map Item.p, x ∈ spread T' := fun x hx => by
    obtain ⟨t, ht, rfl⟩ := List.mem_map.1 hx
    exact hin ht (s2 t ht).own
  have hrow : Row (m₀.set q (some (.text []))) m₂ T' := by
    refine ⟨fun t ht => ?_, e2, adds_same hA3 (fun x hx => e3 x fun h => hx (hpin x h)) fun x hx => ?_⟩
    · obtain ⟨r, hr⟩ := (s2 t ht).record
      obtain ⟨z, hz⟩ := e4 t.p (List.mem_map.2 ⟨t, ht, rfl⟩) r hr
      refine (s2 t ht).next (spread_nodup hA2.nodup ht) (fun x hx hne => e3 x fun h => ?_) hr hz
      obtain ⟨s, hs, rfl⟩ := List.mem_map.1 h
      exact hne (by rw [apart hA2.nodup ht hs hx (s2 s hs).own])
    · by_cases c : x ∈ T'.map Item.p
      · obtain ⟨t, ht, rfl⟩ := List.mem_map.1 c
        obtain ⟨r, hr⟩ := (s2 t ht).record
        obtain ⟨z, hz⟩ := e4 t.p c r hr
        rw [hz]; simp
      · rw [e3 x c]; exact hA3.used x hx
  have hq2 : Holding m₀ q [] (m₀.set q (some (.text []))) := by
    refine ⟨hq1.1, ?_, rfl⟩
    have hm := hq1.2.1
    by_cases c : q ∈ spread T
    · exact absurd hm (hA.used q c)
    · rw [← hA.same q c]; exact hm
  obtain ⟨f1, f2⟩ := hrow.drop hq2
  rw [f1, bind_ok]
  refine .inr ⟨T', _, rfl, f2, p1, p1.map _, fun c1 c2 => ?_⟩
  have hs := hsort (fun a ha b hb => ?_) (fun a ha b hb d hd => ?_)
  · rw [← p2, List.pairwise_map] at hs
    rw [List.pairwise_map]
    refine hs.imp_of_mem fun {a b} ha hb h => ?_
    rwa [compareAt_spec (s2 a ha) (s2 b hb)] at h
  · obtain ⟨t, ht, rfl⟩ := List.mem_map.1 ha
    obtain ⟨s, hs, rfl⟩ := List.mem_map.1 hb
    rw [compareAt_spec (s1 t ht) (s1 s hs), compareAt_spec (s1 s hs) (s1 t ht)]
    exact c1 _ (List.mem_map.2 ⟨t, ht, rfl⟩) _ (List.mem_map.2 ⟨s, hs, rfl⟩)
  · obtain ⟨t, ht, rfl⟩ := List.mem_map.1 ha
    obtain ⟨s, hs, rfl⟩ := List.mem_map.1 hb
    obtain ⟨u, hu, rfl⟩ := List.mem_map.1 hd
    rw [compareAt_spec (s1 t ht) (s1 s hs), compareAt_spec (s1 s hs) (s1 u hu), compareAt_spec (s1 t ht) (s1 u hu)]
    exact c2 _ (List.mem_map.2 ⟨t, ht, rfl⟩) _ (List.mem_map.2 ⟨s, hs, rfl⟩) _ (List.mem_map.2 ⟨u, hu, rfl⟩)

end Satyr.Heap
