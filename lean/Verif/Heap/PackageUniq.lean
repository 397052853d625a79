import Verif.Heap.PackageLists
import Verif.Heap.GdbTextFrames
/-!
# Merging packages in memory
-/
namespace Satyr.Heap
open Satyr.CStr
open Satyr.Rpm (Package)

theorem consistencyChain_spec : ∀ l, (consistencyChain l).Typed [.consistency] ∧ (consistencyChain l).size = l.length
  | [] => ⟨trivial, rfl⟩
  | c :: l => by
    obtain ⟨h1, h2⟩ := consistencyChain_spec l
    exact ⟨⟨by simp, rfl, h1, MemberOk.nil _ _, MemberOk.nil _ _, MemberOk.nil _ _, MemberOk.nil _ _⟩, by
      simp only [consistencyChain, Chain.size, h2, List.length_cons]; omega⟩

theorem whole_typed (x : Package) : ((wholePackage x).chain .package 0).Typed [.package] :=
  ⟨by simp, rfl, trivial, ⟨(consistencyChain_spec x.consistency).1, fun h => by cases h⟩, MemberOk.nil _ _, MemberOk.nil _ _, MemberOk.nil _ _⟩

theorem whole_size (x : Package) : ((wholePackage x).chain .package 0).size = 1 + x.consistency.length := by
  show 1 + (consistencyChain x.consistency).size + 0 + 0 + 0 + 0 = _
  rw [(consistencyChain_spec _).2]; omega

theorem packChain_size : ∀ l : List Package, l.length ≤ (packChain l).size ∧ ∀ x ∈ l, 1 + x.consistency.length ≤ (packChain l).size
  | [] => ⟨Nat.zero_le _, by simp⟩
  | x :: l => by
    obtain ⟨h1, h2⟩ := packChain_size l
    have e : (packChain (x :: l)).size = 1 + x.consistency.length + (packChain l).size := by
      rw [packChain_cons]
      show 1 + (consistencyChain x.consistency).size + 0 + 0 + 0 + _ = _
      rw [(consistencyChain_spec _).2]; omega
    refine ⟨by rw [e, List.length_cons]; omega, fun y hy => ?_⟩
    rcases List.mem_cons.1 hy with rfl | hy
    · omega
    · have := h2 y hy; omega

/-! ## Packages without order -/

/-- Memory `m` is memory `m₀` with packages in addition. -/
def Stock (m₀ m : Mem) (T : List Item) : Prop := (∀ t ∈ T, t.In m) ∧ Adds m₀ m (spread T)

theorem Stock.perm {m₀ m : Mem} {T T' : List Item} (h : Stock m₀ m T) (hp : T'.Perm T) : Stock m₀ m T' :=
  ⟨fun t ht => h.1 t (hp.subset ht), h.2.perm (spread_perm hp).symm⟩

theorem mem_spread {T : List Item} {t : Item} {x : Ptr} (ht : t ∈ T) (hx : x ∈ t.f) : x ∈ spread T := List.mem_flatMap.2 ⟨_, ht, hx⟩

theorem Stock.link {m₀ m : Mem} {T : List Item} (h : Stock m₀ m T) {v : Item} (hv : v ∈ T) (q : Ptr) :
    ∃ m', link v.p q m = .ok m' ∧ Stock m₀ m' T ∧ (∃ r, m' v.p = some (.record r) ∧ r.next = q) ∧ ∀ x, x ≠ v.p → m' x = m x := by
  obtain ⟨r, hr⟩ := (h.1 v hv).record
  have hs : m.set v.p (some (.record { r with next := q })) v.p = _ := set_eq _ _ _
  refine ⟨m.set v.p (some (.record { r with next := q })), by rw [Heap.link, readRecord, hr]; dsimp only; rw [bind_ok, writeRecord, hr],
    ⟨fun t ht => ?_, adds_same h.2 (fun x hx => set_ne _ _ fun e => hx (e ▸ mem_spread hv (h.1 v hv).own)) fun x hx => ?_⟩, ⟨_, hs, rfl⟩,
    fun x hx => set_ne _ _ hx⟩
  · by_cases c : t = v
    · subst c
      exact (h.1 t ht).next (spread_nodup h.2.nodup ht) (fun x _ hx => set_ne _ _ hx) hr hs
    · exact (h.1 t ht).congr fun x hx => set_ne _ _ fun e => c (apart h.2.nodup ht hv hx (e ▸ (h.1 v hv).own))
  · by_cases c : x = v.p
    · rw [c, hs]; simp
    · rw [set_ne _ _ c]; exact h.2.used x hx

theorem Stock.free {m₀ m : Mem} {T : List Item} {v : Item} (h : Stock m₀ m (v :: T)) {n : Nat} (hn : 1 + v.x.consistency.length < n) :
    ∃ m', Heap.free n v.p false m = .ok m' ∧ Stock m₀ m' T ∧ ∀ x ∈ spread T, m' x = m x := by
  have hA : Adds m₀ m (v.f ++ spread T) := h.2
  have hnd := List.nodup_append.1 hA.nodup
  have keep : ∀ x ∈ spread T, erase m v.f x = m x := fun x hx => if_neg fun hv => hnd.2.2 x hv x hx rfl
  refine ⟨erase m v.f, free_spec _ n false v.p v.f m [.package] (by rw [whole_size]; exact hn) (whole_typed _) ⟨fun e => (by cases e), trivial⟩
    (h.1 v (by simp)) hnd.1, ⟨fun t ht => (h.1 t (by simp [ht])).congr fun x hx => keep x (mem_spread ht hx), hnd.2.1,
    fun x hx => hA.fresh x (by simp [hx]), fun x hx => by rw [keep x hx]; exact hA.used x (by simp [hx]), fun x hx => ?_⟩, keep⟩
  by_cases c : x ∈ v.f
  · rw [hA.fresh x (by simp [c])]; exact if_pos c
  · rw [show erase m v.f x = m x from if_neg c, hA.same x (by simp [c, hx])]

/-! ## The merged package -/

theorem copyMember_spec (A : Allocator) {m₀ m : Mem} {q y} {t : Item} (h : Built .package .null m₀ m q y) (ht : t.In m₀) {i : Nat} (hi : i < 4)
    (hy : y.texts[i]? = some none) : copyMember A i t.p q m = .abort ∨ ∃ m', copyMember A i t.p q m = .ok m' ∧
      Built .package .null m₀ m' q { y with texts := y.texts.set i ((packagePart t.x).texts.getD i none) } := by
  have ht : t.In m := Holds.ext ht h.ext
  obtain ⟨r, fs, fa, fb, fc, fe, fn, g0, g1, g2, g3, g4, g5, _⟩ := ht
  have hr := readOpt_spec g5 i (by exact hi)
  rw [copyMember, readRecord, g1]
  dsimp only
  rw [bind_ok]
  have key : ∀ {p s}, readOpt m p = .ok s → copyText A p m = .abort ∨ ∃ z m', copyText A p m = .ok (z, m') ∧ HoldingOpt m z s m' := by
    intro p s hs
    rw [readOpt] at hs
    rw [copyText]
    by_cases c : p = 0
    · rw [if_pos c] at hs ⊢
      cases hs
      exact .inr ⟨0, m, rfl, rfl, rfl⟩
    · rw [if_neg c] at hs ⊢
      rw [readText] at hs
      match hm : m p, hs with
      | some (.text w), hs =>
        cases hs
        rcases newText A w m with e | ⟨z, m', e, hz⟩
        · exact .inl e
        · exact .inr ⟨z, m', e, hz⟩
      | some (.record _), hs => cases hs
      | none, hs => cases hs
  rcases key hr with e | ⟨z, m', e, hz⟩
  · rw [e]; exact .inl rfl
  rw [e, bind_ok]
  obtain ⟨m₂, e2, hb⟩ := setText_spec h hz hy
  exact .inr ⟨m₂, e2, hb⟩

theorem merge_plain (x y : Package) : Rpm.merge { x with consistency := [] } { y with consistency := [] } = Rpm.merge x y := rfl

theorem packagePart_eq (z : Package) : packagePart z = { data := [(z.epoch : Int), (z.installTime : Int), if z.role = .unknown then 0 else 1]
                                                         texts := [z.name, z.version, z.release, z.architecture] } := by
  unfold packagePart
  cases z.role <;> rfl

theorem packageMerge_spec (A : Allocator) {m : Mem} {t s : Item} (ht : t.In m) (hs : s.In m) : packageMerge A t.p s.p m = .abort ∨
    match Rpm.merge t.x s.x with
    | none => packageMerge A t.p s.p m = .ok (0, m)
    | some z => z.consistency = [] ∧ ∃ q m', packageMerge A t.p s.p m = .ok (q, m') ∧ Built .package .null m m' q (packagePart z) := by
  rw [packageMerge, readPackage_spec ht, bind_ok, readPackage_spec hs, bind_ok, ← merge_plain]
  rw [Rpm.merge]
  split
  · exact .inr rfl
  split
  · exact .inr rfl
  split
  · exact .inr rfl
  rename_i c1 c2 c3
  rcases new_spec A .package .null m with e | ⟨q, m₁, e, hb⟩
  · rw [e]; exact .inl rfl
  rw [e, bind_ok]
  dsimp only
  rcases copyMember_spec A hb ht (i := 0) (by omega) rfl with e | ⟨m₂, e, hb⟩
  · rw [e]; exact .inl rfl
  rw [e, bind_ok]
  rcases copyMember_spec A hb ht (i := 1) (by omega) rfl with e | ⟨m₃, e, hb⟩
  · rw [e]; exact .inl rfl
  rw [e, bind_ok]
  rcases copyMember_spec A hb ht (i := 2) (by omega) rfl with e | ⟨m₄, e, hb⟩
  · rw [e]; exact .inl rfl
  rw [e, bind_ok]
  have arch : mergeArchitecture A { t.x with consistency := [] } { s.x with consistency := [] } t.p s.p q m₄ = .abort ∨
      ∃ m₅, mergeArchitecture A { t.x with consistency := [] } { s.x with consistency := [] } t.p s.p q m₄ = .ok m₅ ∧
        Built .package .null m m₅ q { texts := [t.x.name, t.x.version, t.x.release, t.x.architecture.or s.x.architecture] } := by
    rw [mergeArchitecture]
    dsimp only
    cases ha : t.x.architecture with
    | some a =>
      rw [if_pos (by simp)]
      rcases copyMember_spec A hb ht (i := 3) (by omega) rfl with e | ⟨m₅, e, hb⟩
      · exact .inl e
      · refine .inr ⟨m₅, e, ?_⟩
        have := hb
        simpa [packagePart, ha, texts] using this
    | none =>
      rw [if_neg (by simp)]
      cases hc : s.x.architecture with
      | some a =>
        rw [if_pos (by simp)]
        rcases copyMember_spec A hb hs (i := 3) (by omega) rfl with e | ⟨m₅, e, hb⟩
        · exact .inl e
        · refine .inr ⟨m₅, e, ?_⟩
          simpa [packagePart, hc, texts] using hb
      | none =>
        rw [if_neg (by simp)]
        exact .inr ⟨m₄, rfl, by simpa [packagePart, texts] using hb⟩
  rcases arch with e | ⟨m₅, e, hb⟩
  · rw [e]; exact .inl rfl
  rw [e, bind_ok]
  obtain ⟨m₆, e, hb⟩ := setData_spec hb [(t.x.epoch : Int), ((if t.x.installTime ≠ 0 then t.x.installTime else s.x.installTime : Nat) : Int),
      if (if t.x.role ≠ .unknown then t.x.role else s.x.role) = .unknown then 0 else 1]
  rw [e, bind_ok]
  refine .inr ⟨rfl, q, m₆, rfl, ?_⟩
  rw [packagePart_eq]
  exact hb

theorem Built.item {m m' : Mem} {q : Ptr} {z : Package} (h : Built .package .null m m' q (packagePart z)) (hz : z.consistency = []) :
    ∃ g, (Item.mk q z g).In m' ∧ Adds m m' g := by
  obtain ⟨r, f, h1, h2, h3, h4⟩ := h.holds
  have hw : wholePackage z = packagePart z := by rw [wholePackage, hz]; rfl
  rw [h2] at h3
  refine ⟨f, ?_, h4⟩
  show Holds m' ((wholePackage z).chain .package 0) false q f
  rw [hw]
  obtain ⟨r', g, fn, k1, k2, k3, k4, k5, k6⟩ := Holds.split h3
  obtain ⟨_, rfl⟩ := k5
  rw [k6, List.append_nil]
  exact k4

/-! ## The list -/

theorem Stock.last {m₀ m : Mem} {T : List Item} (h : Stock m₀ m T) : (T.map Item.p).Nodup := addresses_nodup h.2.nodup fun t ht => (h.1 t ht).own

theorem replaceBoth_spec {m₀ m m₁ : Mem} {D R : List Item} {t u w : Item} {n : Nat} {first : Ptr} (h : Row m₀ m (D ++ t :: u :: R)) (hw : w.In m₁)
    (hA : Adds m m₁ w.f) (ht : 1 + t.x.consistency.length < n) (hu : 1 + u.x.consistency.length < n) :
    ∃ m', replaceBoth n first ((D.map Item.p).getLastD 0) t.p w.p m₁ = .ok (if (D.map Item.p).getLastD 0 ≠ 0 then first else w.p, m') ∧
      Row m₀ m' (D ++ w :: R) := by
  obtain ⟨h1, h2, h3⟩ := h
  have s1 : Stock m₀ m₁ (u :: t :: (w :: (D ++ R))) := by
    have : Stock m₀ m₁ ((D ++ t :: u :: R) ++ [w]) := by
      refine ⟨fun v hv => ?_, ?_⟩
      · rcases List.mem_append.1 hv with hv | hv
        · exact Holds.ext (h1 v hv) hA.ext
        · rw [List.mem_singleton.1 hv]; exact hw
      · have := h3.trans hA
        simpa [spread] using this
    refine this.perm ?_
    have p1 : (D ++ t :: u :: R).Perm (t :: u :: (D ++ R)) := List.perm_middle.trans (List.perm_middle.cons t)
    have p2 : ((D ++ t :: u :: R) ++ [w]).Perm (w :: (t :: u :: (D ++ R))) := (List.perm_append_comm).trans (p1.cons w)
    refine List.Perm.symm (p2.trans ?_)
    exact ((List.Perm.swap t w _).trans ((List.Perm.swap u w _).cons t)).trans (List.Perm.swap u t _)
  have hnd := s1.last
  have g1 : Seg m₁ (D.map Item.p ++ t.p :: u.p :: R.map Item.p) 0 := by
    have : Seg m (D.map Item.p ++ t.p :: u.p :: R.map Item.p) 0 := by simpa using h2
    refine this.congr fun x hx => hA.ext x ?_
    have hx : x ∈ (D ++ t :: u :: R).map Item.p := by simpa using hx
    obtain ⟨v, hv, rfl⟩ := List.mem_map.1 hx
    obtain ⟨r, hr⟩ := (h1 v hv).record
    rw [hr]; simp
  obtain ⟨gD, gt, gu, gR⟩ := seg_append.1 g1
  simp only [List.map_cons, List.map_append, List.nodup_cons, List.mem_cons, List.mem_append, not_or, List.nodup_append] at hnd
  obtain ⟨⟨nu1, nu2, nu3, nu4⟩, ⟨nt1, nt2, nt3⟩, ⟨nw1, nw2⟩, nD, nR, nDR⟩ := hnd
  -- the package before
  have step1 : ∃ m₂, (if (D.map Item.p).getLastD 0 ≠ 0 then link ((D.map Item.p).getLastD 0) w.p m₁ else .ok m₁) = .ok m₂ ∧
      Stock m₀ m₂ (u :: t :: (w :: (D ++ R))) ∧ Seg m₂ (D.map Item.p) w.p ∧ Seg m₂ (t.p :: u.p :: R.map Item.p) 0 := by
    rcases List.eq_nil_or_concat D with rfl | ⟨D', d, rfl⟩
    · exact ⟨m₁, by rw [if_neg (by simp)], s1, trivial, gt, gu, gR⟩
    · rw [List.concat_eq_append] at *
      have hd : d ∈ u :: t :: (w :: ((D' ++ [d]) ++ R)) := by simp
      obtain ⟨m₂, e1, e2, e3, e4⟩ := s1.link hd w.p
      have hlast : ((D' ++ [d]).map Item.p).getLastD 0 = d.p := by simp
      rw [List.map_append] at gD nD
      have hD' : d.p ∉ D'.map Item.p := fun hx => (List.nodup_append.1 nD).2.2 d.p hx d.p (by simp) rfl
      have hdm : d.p ∈ (D' ++ [d]).map Item.p := by simp
      refine ⟨m₂, by rw [hlast, if_pos (s1.1 d hd).ne, e1], e2, ?_, Seg.congr (l := t.p :: u.p :: R.map Item.p) ⟨gt, gu, gR⟩ fun x hx => e4 x ?_⟩
      · rw [List.map_append]
        refine seg_append.2 ⟨(seg_append.1 gD).1.congr fun x hx => e4 x fun e => hD' (e ▸ hx), e3, trivial⟩
      · rcases List.mem_cons.1 hx with rfl | hx
        · exact fun e => nt2 (e ▸ by simp)
        rcases List.mem_cons.1 hx with rfl | hx
        · exact fun e => nu3 (e ▸ by simp)
        · exact fun e => nDR d.p (by simp) x hx e.symm
  obtain ⟨m₂, e1, s2, gD, ⟨rt, ht1, ht2⟩, ⟨ru, hu1, hu2⟩, gR⟩ := step1
  obtain ⟨m₃, e2, s3, gw, k3⟩ := s2.link (v := w) (by simp) ((R.map Item.p).headD 0)
  obtain ⟨m₄, e3, s4, k4⟩ := s3.free hu
  obtain ⟨m₅, e4, s5, k5⟩ := s4.free ht
  have ht2 : rt.next = u.p := ht2
  refine ⟨m₅, ?_, (s5.perm List.perm_middle).1, ?_, (s5.perm List.perm_middle).2⟩
  · rw [replaceBoth, e1, bind_ok, readRecord, ht1]
    dsimp only
    rw [bind_ok, ht2, readRecord, hu1]
    dsimp only
    rw [bind_ok, hu2, e2, bind_ok, e3, bind_ok, e4, bind_ok]
  · have keep : ∀ v ∈ w :: (D ++ R), m₅ v.p = m₃ v.p := fun v hv => by
      have hv1 := mem_spread hv (s5.1 v hv).own
      rw [k5 _ hv1, k4 _ (mem_spread (List.mem_cons_of_mem _ hv) (s5.1 v hv).own)]
    rw [List.map_append, List.map_cons]
    refine seg_append.2 ⟨(gD.congr (m' := m₅) fun x hx => ?_), ?_, gR.congr fun x hx => ?_⟩
    · have hxw : x ≠ w.p := fun e => nw1 (e ▸ hx)
      obtain ⟨v, hv, rfl⟩ := List.mem_map.1 hx
      rw [keep v (by simp [hv]), k3 _ hxw]
    · rw [keep w (by simp)]; exact gw
    · have hxw : x ≠ w.p := fun e => nw2 (e ▸ hx)
      obtain ⟨v, hv, rfl⟩ := List.mem_map.1 hx
      rw [keep v (by simp [hv]), k3 _ hxw]

theorem uniqLoop_spec (A : Allocator) {n : Nat} : ∀ (R : List Item) (D : List Item) (t : Item) (fuel : Nat) (m₀ m : Mem), R.length < fuel →
    Row m₀ m (D ++ t :: R) → (∀ s ∈ t :: R, 1 + s.x.consistency.length < n) →
    uniqLoop A n fuel (((D ++ t :: R).map Item.p).headD 0) ((D.map Item.p).getLastD 0) t.p m = .abort ∨
    ∃ (T : List Item) (m' : Mem), uniqLoop A n fuel (((D ++ t :: R).map Item.p).headD 0) ((D.map Item.p).getLastD 0) t.p m = .ok ((T.map Item.p).headD 0, m') ∧
      Row m₀ m' T ∧ T.map Item.x = D.map Item.x ++ Rpm.uniqLoop t.x (R.map Item.x) := by
  intro R
  induction R with
  | nil =>
    intro D t fuel m₀ m hf h _
    obtain ⟨fuel, rfl⟩ : ∃ k, fuel = k + 1 := ⟨fuel - 1, by simp at hf; omega⟩
    have htm : t.In m := h.1 t (by simp)
    have hs := h.2.1
    rw [List.map_append] at hs
    obtain ⟨_, ⟨r, hr, hn⟩, _⟩ := seg_append.1 hs
    refine .inr ⟨D ++ [t], m, ?_, h, by simp [Rpm.uniqLoop]⟩
    rw [uniqLoop, if_neg htm.ne, readRecord, hr]
    dsimp only
    rw [bind_ok, if_pos (by exact hn)]
  | cons u R ih =>
    intro D t fuel m₀ m hf h hn
    obtain ⟨fuel, rfl⟩ : ∃ k, fuel = k + 1 := ⟨fuel - 1, by simp at hf; omega⟩
    have htm : t.In m := h.1 t (by simp)
    have hum : u.In m := h.1 u (by simp)
    have hs := h.2.1
    rw [List.map_append] at hs
    obtain ⟨_, ⟨r, hr, hnx⟩, _⟩ := seg_append.1 hs
    have hnx : r.next = u.p := hnx
    rw [uniqLoop, if_neg htm.ne, readRecord, hr]
    dsimp only
    rw [bind_ok, hnx, if_neg hum.ne, List.map_cons, Rpm.uniqLoop]
    rcases packageMerge_spec A htm hum with e | e
    · rw [e]; exact .inl rfl
    cases hm : Rpm.merge t.x u.x with
    | none =>
      rw [hm] at e
      dsimp only at e ⊢
      rw [e, bind_ok]
      dsimp only
      rw [if_pos rfl]
      have := ih (D ++ [t]) u fuel m₀ m (by simpa using hf) (by simpa using h) (fun s hs => hn s (by simp at hs ⊢; tauto))
      simpa using this
    | some z =>
      rw [hm] at e
      obtain ⟨hz, q, m₁, e, hb⟩ := e
      dsimp only
      rw [e, bind_ok]
      dsimp only
      rw [if_neg hb.ne]
      obtain ⟨g, hin, hA⟩ := hb.item hz
      obtain ⟨m₂, e2, hrow⟩ := replaceBoth_spec (first := ((D ++ t :: u :: R).map Item.p).headD 0) h hin hA (hn t (by simp)) (hn u (by simp))
      have e2 : replaceBoth n _ _ t.p q m₁ = _ := e2
      rw [e2, bind_ok]
      dsimp only
      have hfirst : (if (D.map Item.p).getLastD 0 ≠ 0 then ((D ++ t :: u :: R).map Item.p).headD 0 else q) =
          ((D ++ Item.mk q z g :: R).map Item.p).headD 0 := by
        rcases List.eq_nil_or_concat D with rfl | ⟨D', d, rfl⟩
        · simp
        · rw [List.concat_eq_append] at *
          have hd : d.p ≠ 0 := (h.1 d (by simp)).ne
          rw [if_pos (by simpa using hd)]
          cases D' <;> simp
      rw [hfirst]
      refine ih D ⟨q, z, g⟩ fuel m₀ m₂ (by simpa using hf) hrow fun s hs => ?_
      rcases List.mem_cons.1 hs with rfl | hs
      · have := hn t (by simp)
        show 1 + z.consistency.length < n
        rw [hz]; simp; omega
      · exact hn s (by simp [hs])

end Satyr.Heap
