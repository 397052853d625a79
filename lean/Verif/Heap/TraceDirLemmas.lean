import Verif.Heap.TraceDirModel
import Verif.Heap.ReportDirProps
import Verif.Heap.JavaTextProps
import Verif.Heap.KoopsTextProps
import Verif.Heap.TextProps
/-!
# The stack trace of the report of a problem directory in memory
-/
namespace Satyr.Heap
open Satyr.CStr
open Satyr.Abrt (Dir)
open Satyr.Report (UReport Stacktrace)

theorem Draft.of {b m : Mem} {p : Ptr} {r : UReport} {f : List Ptr} (hu : r.auth = []) (h : Holds m ((reportPart r none none 0).chain .report 0) true p f)
    (ha : Adds b m f) : Draft b m p r := by
  obtain ⟨x, fs, fa, fb, fc, fe, fn, g0, g1, g2, g3, gw, g4, ga, gb, gc, ge, gn, rfl⟩ := h
  obtain ⟨gn, rfl⟩ := gn
  have ge' : Holds m (entryChain r.auth) true x.e fe := ge
  rw [hu] at ge'
  clear ge
  obtain ⟨ge, rfl⟩ := ge'
  exact ⟨x, fs, fa, fb, fc, g0, g1, g2, g3, g4, ga, gb, gc, ge, gn, gw, hu, by simpa using ha⟩

theorem Draft.trace {b m m' p r g q t} (h : Draft b m p r) (ho : r.stacktrace = none) (hv : Holds m' (traceChain 0 t) true q g) (hA : Adds m m' g) :
    ∃ m'', put p (fun x => { x with c := q }) m' = .ok m'' ∧ Draft b m'' p { r with stacktrace := t } := by
  obtain ⟨x, fs, fa, fb, fc, g0, g1, g2, g3, g4, ga, gb, gc, ge, gn, gw, gu, g'⟩ := h.more hA
  rw [ho] at gc
  obtain ⟨_, rfl⟩ := gc
  refine ⟨_, put_spec _ g1, Draft.rebuild (fs := fs) (fa := fa) (fb := fb) (fc := g) g0 g2 g3 g4 ga gb hv ge gn gw gu (g'.perm ?_)⟩
  simp

/-- What is added to memory besides the report can be seen as added before it. -/
theorem Draft.adds {b m m₁ p r g} (h : Draft b m p r) (hA : Adds m m₁ g) : ∃ b₁, Draft b₁ m₁ p r ∧ Adds b b₁ g ∧ ∀ x ∈ g, b₁ x = m₁ x := by
  classical
  obtain ⟨x, fs, fa, fb, fc, g0, g1, g2, g3, g4, ga, gb, gc, ge, gn, gw, gu, g'⟩ := h
  have hd : ∀ y ∈ p :: (fs ++ (fa ++ (fb ++ fc))), y ∉ g := fun y hy hg => g'.used y hy (hA.fresh y hg)
  have hb : ∀ y ∈ g, b y = none := fun y hy => by rw [← g'.same y fun h => hd y h hy]; exact hA.fresh y hy
  refine ⟨fun y => if y ∈ g then m₁ y else b y, ⟨x, fs, fa, fb, fc, g0, by rw [hA.ext p (by rw [g1]; simp), g1], g2, g3, g4.ext hA.ext, ga.ext hA.ext,
    gb.ext hA.ext, gc.ext hA.ext, ge, gn, gw, gu, g'.nodup, fun y hy => ?_, fun y hy => ?_, fun y hy => ?_⟩,
    ⟨hA.nodup, hb, fun y hy => ?_, fun y hy => if_neg hy⟩, fun y hy => if_pos hy⟩
  · rw [if_neg (hd y hy)]; exact g'.fresh y hy
  · rw [hA.same y (hd y hy)]; exact g'.used y hy
  · split
    · rfl
    · next c => rw [hA.same y c, g'.same y hy]
  · rw [if_pos hy]; exact hA.used y hy

theorem Adds.uncell {b b₁ : Mem} {g : List Ptr} {q : Ptr} {c : Cell} (h : Adds (b.set q (some c)) b₁ g) (hq : b q = none) :
    ∃ b₂, b₁ = b₂.set q (some c) ∧ b₂ q = none ∧ Adds b b₂ g ∧ ∀ x ∈ g, b₂ x = b₁ x := by
  have hn : q ∉ g := fun hg => by have := h.fresh q hg; rw [set_eq] at this; cases this
  have hne : ∀ x ∈ g, x ≠ q := fun x hx e => hn (e ▸ hx)
  refine ⟨b₁.set q none, ?_, set_eq _ _ _, ⟨h.nodup, fun x hx => ?_, fun x hx => ?_, fun x hx => ?_⟩, fun x hx => set_ne _ _ (hne x hx)⟩
  · funext x
    by_cases e : x = q
    · rw [e, set_eq, h.same q hn, set_eq]
    · rw [set_ne _ _ e, set_ne _ _ e]
  · have := h.fresh x hx
    rwa [set_ne _ _ (hne x hx)] at this
  · rw [set_ne _ _ (hne x hx)]; exact h.used x hx
  · by_cases e : x = q
    · rw [e, set_eq, hq]
    · rw [set_ne _ _ e, h.same x hx, set_ne _ _ e]

/-! ## Specification -/

/-- Reading a stack trace that is to give `t`, or nothing: what is lost has the property `K`. If there is a message in memory, it is one of
the texts lost. -/
def Parsed (K : Mem → List Ptr → Prop) (t : Option Stacktrace) (m : Mem) (o : Out (Ptr × Str × Mem × Message)) : Prop :=
  o = .abort ∨ ∃ m₁ g, Adds m m₁ g ∧ K m₁ g ∧ match t with
    | some t => ∃ q rest m' f c, o = .ok (q, rest, m', c) ∧ Holds m' (traceChain 0 (some t)) true q f ∧ Adds m₁ m' f
    | none => ∃ rest c, o = .ok (0, rest, m₁, c) ∧ ∀ q, c = .block q → q ∈ g ∧ ∃ s, m₁ q = some (.text s)

/-- Reading the stack trace `t` for the report `r` at `p`, if memory without the report is `b`: the program stops for lack of memory; or in
addition to `b` there is what is lost, which has the property `K`, and the report with its stack trace, and the message is as before; or,
if there is no stack trace, what is lost and a message, and the report is freed. -/
def Gained (K : Mem → List Ptr → Prop) (t : Option Stacktrace) (b : Mem) (e p : Ptr) (r : UReport) (o : Out (Ptr × Mem × Ptr)) : Prop :=
  o = .abort ∨ ∃ b₁ g, Adds b b₁ g ∧ K b₁ g ∧ match t with
    | some t => ∃ m' f, o = .ok (p, m', e) ∧ Holds m' ((reportPart { r with stacktrace := some t } none none 0).chain .report 0) true p f ∧ Adds b₁ m' f
    | none => ∃ z, z ≠ 0 ∧ b₁ z = none ∧ o = .ok (0, b₁.set z (some (.text [])), z)

/-! ## Steps -/

theorem traceFile_missing (A : Allocator) (parse) {n : Nat} {d : Dir} {b m p r} (e : Ptr) (h : Draft b m p r) (hr : r.stacktrace = none)
    (hn : r.packages.length + 2 < n) (hd : d.contents c!"backtrace" = none) : Gained (fun _ g => g = []) none b e p r (traceFile A parse n d p m e) := by
  rw [traceFile]
  rcases fileText_spec A d c!"backtrace" m e with a | hf
  · rw [a]; exact .inl rfl
  rw [hd] at hf
  obtain ⟨z, m', a, h0, h1, rfl⟩ := hf
  obtain ⟨k1, k2⟩ := h.cell (c := .text []) h1
  rw [a, bind_ok]
  dsimp only
  rw [if_pos rfl, k2.drop hr hn]
  exact .inr ⟨b, [], .refl b, rfl, z, h0, k1, rfl⟩

theorem locationText_spec (A : Allocator) {c : Message} {m : Mem} (hc : ∀ q, c = .block q → ∃ s, m q = some (.text s)) :
    locationText A c m = alloc A (.text []) m := by
  cases c with
  | block q =>
    obtain ⟨s, h⟩ := hc q rfl
    simp only [locationText, readText, h, bind_ok]
  | _ => rfl

theorem traceChain_ne (t : Stacktrace) : traceChain 0 (some t) ≠ .nil := by simp [traceChain, Part.chain]

theorem traceFile_spec (A : Allocator) {parse} {n : Nat} {d : Dir} {b m p r} (e : Ptr) (h : Draft b m p r) (hr : r.stacktrace = none)
    (hn : r.packages.length + 2 < n) {s : Str} (hd : d.contents c!"backtrace" = some s) {K : Mem → List Ptr → Prop} {t : Option Stacktrace}
    (hK : ∀ {m m' g}, K m g → (∀ x ∈ g, m' x = m x) → K m' g) (hp : ∀ m, Parsed K t m (parse s m .unset)) :
    Gained K t b e p r (traceFile A parse n d p m e) := by
  rw [traceFile]
  rcases fileText_spec A d c!"backtrace" m e with a | hf
  · rw [a]; exact .inl rfl
  rw [hd] at hf
  obtain ⟨q, m₁, a, h0, h1, rfl⟩ := hf
  obtain ⟨k1, k2⟩ := h.cell (c := .text s) h1
  rw [a, bind_ok]
  dsimp only
  rw [if_neg h0, readText, set_eq]
  dsimp only
  rw [bind_ok]
  rcases hp (m.set q (some (.text s))) with a | ⟨m₂, g, hA, hk, ht⟩
  · rw [a]; exact .inl rfl
  obtain ⟨b₁, d1, d2, d3⟩ := k2.adds hA
  obtain ⟨b₂, rfl, f1, f2, f3⟩ := d2.uncell k1
  have hk2 : K b₂ g := hK hk fun x hx => by rw [f3 x hx, d3 x hx]
  cases t with
  | none =>
    obtain ⟨rest, c, a, hc⟩ := ht
    rw [a, bind_ok]
    obtain ⟨m₃, a, d1⟩ := d1.trace hr (t := none) (g := []) (q := 0) ⟨rfl, rfl⟩ (.refl _)
    dsimp only
    rw [a, bind_ok]
    obtain ⟨m₄, a, d1⟩ := d1.uncell h0 f1
    rw [a, bind_ok, if_pos rfl, locationText_spec A fun w hw => ?_]
    swap
    · obtain ⟨w1, u, w2⟩ := hc w hw
      have hb : b₂ w = some (.text u) := by rw [f3 w w1, d3 w w1, w2]
      obtain ⟨f, _, j⟩ := d1.holds
      exact ⟨u, by rw [j.ext w (by rw [hb]; simp), hb]⟩
    rcases alloc_spec A (.text []) m₄ with a | ⟨z, a, z0, hz⟩
    · rw [a]; exact .inl rfl
    obtain ⟨y1, y2⟩ := d1.cell (c := .text []) (hz.fresh z (by simp))
    rw [a, bind_ok]
    dsimp only
    rw [y2.drop rfl hn]
    exact .inr ⟨b₂, g, f2, hk2, z, z0, y1, rfl⟩
  | some t =>
    obtain ⟨w, rest, m', f, c, a, i1, i2⟩ := ht
    rw [a, bind_ok]
    obtain ⟨m₃, a, d1⟩ := d1.trace hr i1 i2
    dsimp only
    rw [a, bind_ok]
    obtain ⟨m₄, a, d1⟩ := d1.uncell h0 f1
    rw [a, bind_ok, if_neg (i1.ne (traceChain_ne t))]
    obtain ⟨f', j1, j2⟩ := d1.holds
    exact .inr ⟨b₂, g, f2, hk2, m₄, f', rfl, j1, j2⟩

/-! ## Kernel oopses -/

theorem oops_version {s : Str} {k : Frames.KoopsTrace} {rest : Str} (h : Text.Koops.parseTrace s = .ok (k, rest)) : k.version = none := by
  unfold Text.Koops.parseTrace at h
  obtain ⟨x, _, h⟩ := bind_ok_iff.1 h
  cases h
  rfl

/-- The text at `v`, which is in memory, becomes the version of the oops at `q`. -/
theorem oops_put {a m : Mem} {q v : Ptr} {f : List Ptr} {k : Frames.KoopsTrace} {t : Str} (h : Holds m ((koopsTracePart k).chain .koopsTrace 0) true q f)
    (hk : k.version = none) (hv : v ≠ 0) (ha : a v = some (.text t)) (hA : Adds a m f) :
    ∃ m' f', put q (fun r => { r with texts := r.texts.set 0 v }) m = .ok m' ∧
      Holds m' ((koopsTracePart { k with version := some t }).chain .koopsTrace 0) true q f' ∧ Adds (a.set v none) m' f' := by
  obtain ⟨x, fs, fa, fb, fc, fe, fn, g0, g1, g2, g3, gw, g4, ga, gb, gc, ge, gn, rfl⟩ := h
  have hvf : v ∉ q :: (fs ++ (fa ++ (fb ++ (fc ++ (fe ++ fn))))) := fun hf => by have := hA.fresh v hf; rw [ha] at this; cases this
  have hvm : m v = some (.text t) := by rw [hA.same v hvf, ha]
  have hq := (List.nodup_cons.1 hA.nodup).1
  have keep : ∀ {l : List Ptr} (c : Cell), (∀ y ∈ l, y ∈ fs ++ (fa ++ (fb ++ (fc ++ (fe ++ fn))))) → ∀ y ∈ l, m.set q (some c) y = m y :=
    fun c hl y hy => set_ne _ _ fun e : y = q => hq (e ▸ hl y hy)
  have g4 : Texts m [k.version, k.rawOops, k.reason] x.texts fs := g4
  rw [hk] at g4
  generalize hx : x.texts = ts at g4
  cases g4 with
  | @null _ ps _ g4 =>
    have hqv : v ≠ q := fun e => hvf (by simp [e])
    refine ⟨_, q :: ((v :: fs) ++ (fa ++ (fb ++ (fc ++ (fe ++ fn))))), put_spec _ g1, ⟨_, v :: fs, fa, fb, fc, fe, fn, g0, set_eq _ _ _, g2, g3, gw, ?_,
      ga.congr (keep _ (by simp +contextual)), gb.congr (keep _ (by simp +contextual)), gc.congr (keep _ (by simp +contextual)),
      ge.congr (keep _ (by simp +contextual)), gn, rfl⟩, ?_⟩
    · show Texts _ [some t, k.rawOops, k.reason] (x.texts.set 0 v) _
      rw [hx]
      exact .some hv (by rw [set_ne _ _ hqv, hvm]) (g4.congr (keep _ (by simp +contextual)))
    · have hA' := hA.set (p := q) (by simp) (.record { x with texts := x.texts.set 0 v })
      have h1 : Adds (a.set v none) a [v] := ⟨by simp, by simp [set_eq], by simp [ha], fun y hy => (set_ne _ _ (by simpa using hy)).symm⟩
      refine (h1.trans hA').perm ?_
      simp only [List.cons_append, List.nil_append]
      exact .swap _ _ _

theorem oopsFile_spec (A : Allocator) {n : Nat} {d : Dir} {b m p r} (e : Ptr) (h : Draft b m p r) (hr : r.stacktrace = none)
    {v s : Str} (hv : d.contents c!"kernel" = some v) (hs : d.contents c!"backtrace" = some s) : ∃ k rest lost, Text.Koops.parseTrace s = .ok (k, rest) ∧
    Text.Koops.lostTexts s = .ok lost ∧
    Gained (fun m g => AllTexts m lost g) (some (.koops { k with version := some v })) b e p r (oopsFile A n d p m e) := by
  obtain ⟨k, rest, lost, hk, hl, _⟩ := C148_koops A s m
  refine ⟨k, rest, lost, hk, hl, ?_⟩
  rw [oopsFile]
  rcases fileText_spec A d c!"kernel" m e with a | hf
  · rw [a]; exact .inl rfl
  rw [hv] at hf
  obtain ⟨y, _, a, y0, y1, rfl⟩ := hf
  obtain ⟨by1, d1⟩ := h.cell (c := .text v) y1
  rw [a, bind_ok]
  dsimp only
  rw [if_neg y0]
  rcases fileText_spec A d c!"backtrace" (m.set y (some (.text v))) e with a | hf
  · rw [a]; exact .inl rfl
  rw [hs] at hf
  obtain ⟨q, _, a, q0, q1, rfl⟩ := hf
  obtain ⟨bq1, d2⟩ := d1.cell (c := .text s) q1
  rw [a, bind_ok]
  dsimp only
  rw [if_neg q0, readText, set_eq]
  dsimp only
  rw [bind_ok]
  obtain ⟨k', rest', lost', hk', hl', ht⟩ := C148_koops A s ((m.set y (some (.text v))).set q (some (.text s)))
  rw [hk] at hk'; cases hk'
  rw [hl] at hl'; cases hl'
  rcases ht with a | ⟨w, m₁, m', f, a, i1, i2, i3⟩
  · rw [a]; exact .inl rfl
  obtain ⟨g, j1, j2⟩ := i1.texts
  obtain ⟨b₁, d3, d4, d5⟩ := d2.adds j2
  obtain ⟨b₂, rfl, f1, f2, f3⟩ := d4.uncell bq1
  obtain ⟨b₃, rfl, e1, e2, e3⟩ := f2.uncell by1
  have hqy : y ≠ q := fun e => by rw [e, set_eq] at q1; cases q1
  have hK : AllTexts b₃ lost g := j1.congr fun x hx => by rw [e3 x hx, f3 x hx, d5 x hx]
  rw [set_swap _ _ _ hqy] at d3
  have hy1 : m₁ y = some (.text v) := by
    obtain ⟨F, _, hF⟩ := d3.holds
    rw [hF.ext y (by rw [set_eq]; simp), set_eq]
  obtain ⟨m₂, z1, z2⟩ := d3.uncell y0 (by rw [set_ne _ _ hqy, e1])
  obtain rfl : m₂ = m₁.set y none := by
    rw [freeBlock, if_neg y0, hy1] at z1
    exact (Out.ok.inj z1).symm
  rw [a, bind_ok]
  obtain ⟨m₃, f', a, x1, x2⟩ := oops_put i2 (oops_version hk) y0 hy1 i3
  dsimp only
  rw [a, bind_ok]
  obtain ⟨m₄, a, d6⟩ := z2.trace hr (t := some (.koops { k with version := some v })) x1 x2
  rw [a, bind_ok]
  rw [set_ne _ _ (Ne.symm hqy)] at f1
  obtain ⟨m₅, a, d7⟩ := d6.uncell q0 f1
  rw [a, bind_ok]
  obtain ⟨F, o1, o2⟩ := d7.holds
  exact .inr ⟨b₃, g, e2, hK, m₅, F, rfl, o1, o2⟩

theorem oopsFile_kernel (A : Allocator) {n : Nat} {d : Dir} {b m p r} (e : Ptr) (h : Draft b m p r) (hr : r.stacktrace = none)
    (hn : r.packages.length + 2 < n) (hv : d.contents c!"kernel" = none) : Gained (fun _ g => g = []) none b e p r (oopsFile A n d p m e) := by
  rw [oopsFile]
  rcases fileText_spec A d c!"kernel" m e with a | hf
  · rw [a]; exact .inl rfl
  rw [hv] at hf
  obtain ⟨z, m', a, h0, h1, rfl⟩ := hf
  obtain ⟨k1, k2⟩ := h.cell (c := .text []) h1
  rw [a, bind_ok]
  dsimp only
  rw [if_pos rfl, k2.drop hr hn]
  exact .inr ⟨b, [], .refl b, rfl, z, h0, k1, rfl⟩

theorem oopsFile_lost (A : Allocator) {n : Nat} {d : Dir} {b m p r} (e : Ptr) (h : Draft b m p r) (hr : r.stacktrace = none)
    (hn : r.packages.length + 2 < n) {v : Str} (hv : d.contents c!"kernel" = some v) (hs : d.contents c!"backtrace" = none) :
    Gained (fun m g => AllTexts m [v] g) none b e p r (oopsFile A n d p m e) := by
  rw [oopsFile]
  rcases fileText_spec A d c!"kernel" m e with a | hf
  · rw [a]; exact .inl rfl
  rw [hv] at hf
  obtain ⟨y, _, a, y0, y1, rfl⟩ := hf
  obtain ⟨by1, d1⟩ := h.cell (c := .text v) y1
  rw [a, bind_ok]
  dsimp only
  rw [if_neg y0]
  rcases fileText_spec A d c!"backtrace" (m.set y (some (.text v))) e with a | hf
  · rw [a]; exact .inl rfl
  rw [hs] at hf
  obtain ⟨z, _, a, h0, h1, rfl⟩ := hf
  obtain ⟨k1, k2⟩ := d1.cell (c := .text []) h1
  rw [a, bind_ok]
  dsimp only
  rw [if_pos rfl, k2.drop hr hn]
  exact .inr ⟨_, _, Holding.adds ⟨y0, by1, rfl⟩, .cons ⟨y0, set_eq _ _ _⟩ .nil, z, h0, k1, rfl⟩

end Satyr.Heap
