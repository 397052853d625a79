import Verif.Heap.ReportDirModel
import Verif.Heap.SystemDirProps
/-!
# The report of a problem directory in memory
-/
namespace Satyr.Heap
open Satyr.CStr
open Satyr.Abrt (Dir IsOs)
open Satyr.Os (OperatingSystem)
open Satyr.Rpm (Package)
open Satyr.Report (ReportType abrtType UReport)

/-- Memory `m` is memory `b` with the report `r` at `p` in addition. It has no stack trace with a crash thread, and no entries. -/
def Draft (b m : Mem) (p : Ptr) (r : UReport) : Prop :=
  ∃ x fs fa fb fc, p ≠ 0 ∧ m p = some (.record x) ∧ x.kind = .report ∧ x.data = (reportPart r none none 0).data ∧
    Texts m [r.component, none, none] x.texts fs ∧ Holds m (systemChain r.os) true x.a fa ∧ Holds m (packageChain r.packages) true x.b fb ∧
    Holds m (traceChain 0 r.stacktrace) true x.c fc ∧ x.e = 0 ∧ x.next = 0 ∧ x.crashThread = 0 ∧ r.auth = [] ∧
    Adds b m (p :: (fs ++ (fa ++ (fb ++ fc))))

theorem Draft.rebuild {b m : Mem} {p : Ptr} {r : UReport} {x : Record} {fs fa fb fc : List Ptr} (h0 : p ≠ 0) (h2 : x.kind = .report)
    (h3 : x.data = (reportPart r none none 0).data) (h4 : Texts m [r.component, none, none] x.texts fs) (ha : Holds m (systemChain r.os) true x.a fa)
    (hb : Holds m (packageChain r.packages) true x.b fb) (hc : Holds m (traceChain 0 r.stacktrace) true x.c fc) (he : x.e = 0) (hn : x.next = 0)
    (hw : x.crashThread = 0) (hu : r.auth = []) (hadds : Adds b m (p :: (fs ++ (fa ++ (fb ++ fc))))) : Draft b (m.set p (some (.record x))) p r := by
  have hp := (List.nodup_cons.1 hadds.nodup).1
  have keep : ∀ {l : List Ptr}, (∀ y ∈ l, y ∈ fs ++ (fa ++ (fb ++ fc))) → ∀ y ∈ l, m.set p (some (.record x)) y = m y :=
    fun hl y hy => set_ne _ _ fun e : y = p => hp (e ▸ hl y hy)
  exact ⟨x, fs, fa, fb, fc, h0, set_eq _ _ _, h2, h3, h4.congr (keep (by simp +contextual)), ha.congr (keep (by simp +contextual)),
    hb.congr (keep (by simp +contextual)), hc.congr (keep (by simp +contextual)), he, hn, hw, hu, hadds.set (by simp) _⟩

theorem put_spec {m : Mem} {p : Ptr} {x : Record} (f : Record → Record) (h : m p = some (.record x)) :
    put p f m = .ok (m.set p (some (.record (f x)))) := by
  rw [put, readRecord, h]
  dsimp only
  rw [bind_ok, writeRecord, h]

theorem Draft.data {b m p r} (h : Draft b m p r) (f : List Int → List Int) (r' : UReport)
    (hf : f (reportPart r none none 0).data = (reportPart r' none none 0).data) (h1 : r'.component = r.component) (h2 : r'.os = r.os)
    (h3 : r'.packages = r.packages) (h4 : r'.stacktrace = r.stacktrace) (h5 : r'.auth = r.auth) :
    ∃ m', put p (fun x => { x with data := f x.data }) m = .ok m' ∧ Draft b m' p r' := by
  obtain ⟨x, fs, fa, fb, fc, g0, g1, g2, g3, g4, ga, gb, gc, ge, gn, gw, gu, g⟩ := h
  refine ⟨_, put_spec _ g1, Draft.rebuild g0 g2 ?_ ?_ ?_ ?_ ?_ ge gn gw ?_ g⟩
  · show f x.data = _
    rw [g3, hf]
  · rw [h1]; exact g4
  · rw [h2]; exact ga
  · rw [h3]; exact gb
  · rw [h4]; exact gc
  · rw [h5]; exact gu

theorem Draft.more {b m m' p r g} (h : Draft b m p r) (hA : Adds m m' g) : ∃ x fs fa fb fc, p ≠ 0 ∧ m' p = some (.record x) ∧ x.kind = .report ∧
    x.data = (reportPart r none none 0).data ∧ Texts m' [r.component, none, none] x.texts fs ∧ Holds m' (systemChain r.os) true x.a fa ∧
    Holds m' (packageChain r.packages) true x.b fb ∧ Holds m' (traceChain 0 r.stacktrace) true x.c fc ∧ x.e = 0 ∧ x.next = 0 ∧
    x.crashThread = 0 ∧ r.auth = [] ∧ Adds b m' (p :: (fs ++ (fa ++ (fb ++ fc))) ++ g) := by
  obtain ⟨x, fs, fa, fb, fc, g0, g1, g2, g3, g4, ga, gb, gc, ge, gn, gw, gu, g'⟩ := h
  exact ⟨x, fs, fa, fb, fc, g0, by rw [hA.ext p (by rw [g1]; simp), g1], g2, g3, g4.ext hA.ext, ga.ext hA.ext, gb.ext hA.ext, gc.ext hA.ext, ge, gn,
    gw, gu, g'.trans hA⟩

theorem Draft.system {b m m' p r g q o} (h : Draft b m p r) (ho : r.os = none) (hv : Holds m' (systemChain o) true q g) (hA : Adds m m' g) :
    ∃ m'', put p (fun x => { x with a := q }) m' = .ok m'' ∧ Draft b m'' p { r with os := o } := by
  obtain ⟨x, fs, fa, fb, fc, g0, g1, g2, g3, g4, ga, gb, gc, ge, gn, gw, gu, g'⟩ := h.more hA
  rw [ho] at ga
  obtain ⟨_, rfl⟩ := ga
  refine ⟨_, put_spec _ g1, Draft.rebuild (fs := fs) (fa := g) (fb := fb) (fc := fc) g0 g2 g3 g4 hv gb gc ge gn gw gu (g'.perm ?_)⟩
  rw [List.nil_append, List.cons_append, List.append_assoc]
  exact .cons _ (.append_left _ List.perm_append_comm)

theorem Draft.packages {b m m' p r g q ps} (h : Draft b m p r) (ho : r.packages = []) (hv : Holds m' (packageChain ps) true q g) (hA : Adds m m' g) :
    ∃ m'', put p (fun x => { x with b := q }) m' = .ok m'' ∧ Draft b m'' p { r with packages := ps } := by
  obtain ⟨x, fs, fa, fb, fc, g0, g1, g2, g3, g4, ga, gb, gc, ge, gn, gw, gu, g'⟩ := h.more hA
  rw [ho] at gb
  obtain ⟨_, rfl⟩ := gb
  refine ⟨_, put_spec _ g1, Draft.rebuild (fs := fs) (fa := fa) (fb := g) (fc := fc) g0 g2 g3 g4 ga hv gc ge gn gw gu (g'.perm ?_)⟩
  rw [List.nil_append, List.cons_append, List.append_assoc, List.append_assoc]
  exact .cons _ (.append_left _ (.append_left _ List.perm_append_comm))

theorem Draft.component {b m m' p r q s} (h : Draft b m p r) (ho : r.component = none) (hh : Holding m q s m') :
    ∃ m'', put p (fun x => { x with texts := x.texts.set 0 q }) m' = .ok m'' ∧ Draft b m'' p { r with component := some s } := by
  have hA : Adds m m' [q] := by
    obtain ⟨h0, h1, rfl⟩ := hh
    exact ⟨by simp, by simpa using h1, by simp [set_eq], fun x hx => set_ne _ _ (by simpa using hx)⟩
  obtain ⟨x, fs, fa, fb, fc, g0, g1, g2, g3, g4, ga, gb, gc, ge, gn, gw, gu, g'⟩ := h.more hA
  rw [ho] at g4
  generalize hx : x.texts = ts at g4
  cases g4 with
  | @null _ ps _ g4 =>
    refine ⟨_, put_spec _ g1, Draft.rebuild (fs := q :: fs) (fa := fa) (fb := fb) (fc := fc) g0 g2 g3 ?_ ga gb gc ge gn gw gu (g'.perm ?_)⟩
    · show Texts m' _ (x.texts.set 0 q) _
      rw [hx]
      refine .some hh.1 ?_ g4
      obtain ⟨_, _, rfl⟩ := hh
      exact set_eq _ _ _
    · rw [List.cons_append]
      exact .cons _ (List.perm_append_comm.trans (by simp))

/-- Nothing is assigned to a member that is NULL. -/
theorem Draft.nothing {b m p r} (h : Draft b m p r) (f : Record → Record) (hf : ∀ x, f x = x ∨ r.os = none ∧ f x = { x with a := 0 } ∨
    r.packages = [] ∧ f x = { x with b := 0 } ∨ r.component = none ∧ f x = { x with texts := x.texts.set 0 0 }) :
    ∃ m', put p f m = .ok m' ∧ Draft b m' p r := by
  have h' := h
  obtain ⟨x, fs, fa, fb, fc, g0, g1, g2, g3, g4, ga, gb, gc, ge, gn, gw, gu, g'⟩ := h
  have hx : f x = x := by
    rcases hf x with h | ⟨h, h'⟩ | ⟨h, h'⟩ | ⟨h, h'⟩
    · exact h
    · rw [h] at ga
      rw [h', ← ga.1]
    · rw [h] at gb
      rw [h', ← gb.1]
    · rw [h] at g4
      rw [h']
      generalize hx : x.texts = ts at g4
      cases g4 with
      | null g4 => rw [List.set_cons_zero, ← hx]
  refine ⟨_, put_spec _ g1, ?_⟩
  rw [hx]
  exact Draft.rebuild g0 g2 g3 g4 ga gb gc ge gn gw gu g'

theorem Draft.cell {b m p r} {q : Ptr} {c : Cell} (h : Draft b m p r) (hq : m q = none) :
    b q = none ∧ Draft (b.set q (some c)) (m.set q (some c)) p r := by
  have hx : Ext m (m.set q (some c)) := fun y hy => set_ne _ _ fun e => hy (e ▸ hq)
  obtain ⟨x, fs, fa, fb, fc, g0, g1, g2, g3, g4, ga, gb, gc, ge, gn, gw, gu, g⟩ := h
  have hn : q ∉ p :: (fs ++ (fa ++ (fb ++ fc))) := fun hm => g.used q hm hq
  refine ⟨by rw [← g.same q hn, hq], x, fs, fa, fb, fc, g0, by rw [hx p (by rw [g1]; simp), g1], g2, g3, g4.ext hx, ga.ext hx, gb.ext hx, gc.ext hx, ge, gn,
    gw, gu, g.nodup, fun y hy => ?_, fun y hy => ?_, fun y hy => ?_⟩
  · rw [set_ne _ _ (fun e : y = q => hn (e ▸ hy))]; exact g.fresh y hy
  · rw [set_ne _ _ (fun e : y = q => hn (e ▸ hy))]; exact g.used y hy
  · by_cases e : y = q
    · rw [e, set_eq, set_eq]
    · rw [set_ne _ _ e, set_ne _ _ e]; exact g.same y hy

theorem Draft.uncell {b m p r} {q : Ptr} {t : Str} (h : Draft (b.set q (some (.text t))) m p r) (h0 : q ≠ 0) (hq : b q = none) :
    ∃ m', freeBlock m q = .ok m' ∧ Draft b m' p r := by
  obtain ⟨x, fs, fa, fb, fc, g0, g1, g2, g3, g4, ga, gb, gc, ge, gn, gw, gu, g⟩ := h
  have hn : q ∉ p :: (fs ++ (fa ++ (fb ++ fc))) := fun hm => by have := g.fresh q hm; rw [set_eq] at this; cases this
  have hm : m q = some (.text t) := by rw [g.same q hn, set_eq]
  have keep : ∀ {l : List Ptr}, (∀ y ∈ l, y ∈ p :: (fs ++ (fa ++ (fb ++ fc)))) → ∀ y ∈ l, m.set q none y = m y :=
    fun hl y hy => set_ne _ _ fun e : y = q => hn (e ▸ hl y hy)
  refine ⟨m.set q none, by rw [freeBlock, if_neg h0, hm], x, fs, fa, fb, fc, g0, ?_, g2, g3, g4.congr (keep (by simp +contextual)),
    ga.congr (keep (by simp +contextual)), gb.congr (keep (by simp +contextual)), gc.congr (keep (by simp +contextual)), ge, gn, gw, gu, g.nodup,
    fun y hy => ?_, fun y hy => ?_, fun y hy => ?_⟩
  · rw [keep (l := [p]) (by simp) p (by simp), g1]
  · have := g.fresh y hy
    rwa [set_ne _ _ (fun e : y = q => hn (e ▸ hy))] at this
  · rw [set_ne _ _ (fun e : y = q => hn (e ▸ hy))]; exact g.used y hy
  · by_cases e : y = q
    · rw [e, set_eq, hq]
    · rw [set_ne _ _ e, g.same y hy, set_ne _ _ e]

theorem Draft.left {b m p r} (h : Draft b m p r) {e k ts m' e'} (hl : Left m e k ts m' e') : ∃ b', Left b e k ts b' e' ∧ Draft b' m' p r := by
  induction hl with
  | nil => exact ⟨b, .nil, h⟩
  | told _ h2 h3 ih =>
    obtain ⟨b', i1, i2⟩ := ih
    obtain ⟨k1, k2⟩ := i2.cell h3
    exact ⟨_, i1.told h2 k1, k2⟩
  | lost _ h2 h3 ih =>
    obtain ⟨b', i1, i2⟩ := ih
    obtain ⟨k1, k2⟩ := i2.cell h3
    exact ⟨_, i1.lost h2 k1, k2⟩

theorem Told.left {m e k m' e'} (h : Told m e k m' e') : Left m e k [] m' e' := by
  induction h with
  | nil => exact .nil
  | more _ h2 h3 ih => exact ih.told h2 h3

theorem Holding.left {m z m'} (h : Holding m z [] m') (e : Ptr) : Left m e 1 [] m' z := by
  obtain ⟨h0, h1, rfl⟩ := h
  exact Left.nil.told h0 h1

theorem Draft.holds {b m p r} (h : Draft b m p r) : ∃ f, Holds m ((reportPart r none none 0).chain .report 0) true p f ∧ Adds b m f := by
  obtain ⟨x, fs, fa, fb, fc, g0, g1, g2, g3, g4, ga, gb, gc, ge, gn, gw, gu, g⟩ := h
  refine ⟨_, ⟨x, fs, fa, fb, fc, [], [], g0, g1, g2, g3, gw, g4, ga, gb, gc, ?_, ⟨gn, rfl⟩, rfl⟩, by simpa using g⟩
  show Holds m (entryChain r.auth) true x.e []
  rw [gu]
  exact ⟨ge, rfl⟩

theorem systemChain_typed (o : Option OperatingSystem) : (systemChain o).Typed [.system] ∧ (systemChain o).Single ∧ (systemChain o).size ≤ 1 := by
  cases o with
  | none => exact ⟨trivial, trivial, by decide⟩
  | some o => exact ⟨⟨by simp, rfl, trivial, rfl, rfl, rfl, rfl⟩, rfl, by simp [systemChain, Part.chain, systemPart, Chain.size]⟩

theorem report_typed {r : UReport} (hs : r.stacktrace = none) (hu : r.auth = []) :
    ((reportPart r none none 0).chain .report 0).Typed [.report] ∧ ((reportPart r none none 0).chain .report 0).size ≤ 2 + r.packages.length := by
  obtain ⟨s1, s2, s3⟩ := systemChain_typed r.os
  obtain ⟨p1, p2⟩ := packageChain_spec r.packages
  constructor
  · refine ⟨by simp, rfl, trivial, ⟨s1, fun _ => s2⟩, ⟨p1, fun h => by cases h⟩, ?_, ?_⟩
    · have hc : (reportPart r none none 0).c = .nil := by
        show traceChain 0 r.stacktrace = .nil
        rw [hs]; rfl
      rw [hc]; exact MemberOk.nil _ _
    · have he : (reportPart r none none 0).e = .nil := by
        show entryChain r.auth = .nil
        rw [hu]; rfl
      rw [he]; exact MemberOk.nil _ _
  · show 1 + (systemChain r.os).size + (packageChain r.packages).size + (traceChain 0 r.stacktrace).size + (entryChain r.auth).size + 0 ≤ _
    rw [hs, hu, p2]
    show 1 + (systemChain r.os).size + r.packages.length + 0 + 0 + 0 ≤ _
    omega

theorem Draft.drop {b m p r} (h : Draft b m p r) (hs : r.stacktrace = none) {n : Nat} (hn : r.packages.length + 2 < n) (e : Ptr) :
    dropReport n p m e = .ok (0, b, e) := by
  obtain ⟨f, h1, h2⟩ := h.holds
  have hu : r.auth = [] := by
    obtain ⟨x, fs, fa, fb, fc, g0, g1, g2, g3, g4, ga, gb, gc, ge, gn, gw, gu, g⟩ := h
    exact gu
  obtain ⟨t1, t2⟩ := report_typed hs hu
  rw [dropReport, Heap.free_spec _ n false p f m [.report] (by omega) t1 ⟨fun _ => ⟨rfl, rfl⟩, trivial⟩ ?_ h2.nodup, bind_ok, h2.erase]
  obtain ⟨x, fs, fa, fb, fc, fe, fn, g0, g1, g2, g3, gw, g4, ga, gb, gc, ge, gn, rfl⟩ := h1
  obtain ⟨gn, rfl⟩ := gn
  exact ⟨x, fs, fa, fb, fc, fe, [], g0, g1, g2, g3, gw, g4, ga, gb, gc, ge, ⟨rfl, rfl⟩, rfl⟩

theorem newReport_spec (A : Allocator) (m : Mem) (name version : Str) : newReport A m = .abort ∨ ∃ p m', newReport A m = .ok (p, m') ∧
    Draft m m' p { reporterName := name, reporterVersion := version } := by
  rw [newReport]
  rcases alloc_spec A (.record { kind := .report, data := [2, Report.ReportType.invalid.code, 0, 1, 0], texts := [0, 0, 0] }) m with a | ⟨p, a, hp, hA⟩
  · exact .inl a
  · exact .inr ⟨p, _, a, _, [], [], [], [], hp, set_eq _ _ _, rfl, rfl, .null (.null (.null .nil)), ⟨rfl, rfl⟩, ⟨rfl, rfl⟩, ⟨rfl, rfl⟩, rfl, rfl, rfl, rfl, hA⟩

theorem system_clean {d : Dir} {t a v : Str} (ht : d.contents c!"os_info" = some t)
    (hn : ((Os.parseOsRelease t).map Prod.fst).Nodup) (hr : ∀ v, (c!"VERSION", v) ∈ Os.parseOsRelease t → strstrHas v c!"(Rawhide)" = false)
    (hc : (Os.parseEtcOsRelease t {}).1 = true) (ha : d.contents c!"architecture" = some a) (hv : d.contents c!"environ" = some v) :
    lostSystem d = [] ∧ systemMessages d = 0 ∧ ∃ o, IsOs d o := by
  have hf : (fromInfo d).1 = true := by rw [fromInfo, ht]; exact hc
  refine ⟨?_, ?_, { (fromInfo d).2 with architecture := some a, desktop := (d.contents c!"environ").bind Abrt.desktopOf }, ?_⟩
  · rw [lostSystem, if_pos hf, ht, Option.elim_some, List.append_nil]
    exact lostTexts_nil _ _ hn hr (fun _ => rfl) (fun _ => rfl) (fun _ => rfl) (fun _ => rfl)
  · rw [systemMessages, if_pos hf, if_pos (by rw [systemNamed, hf]; rfl), if_neg (by rw [ha]; simp)]
    simp [unread, ht, hv]
  · refine (systemOf_iff d _).1 ?_
    rw [systemOf, systemBase, if_pos hf, Option.bind_some, ha]; rfl

theorem libraries_length {d : Dir} {own libs : List Package} {n : Nat} (h : Libraries d own libs) (ho : own.length ≤ 1)
    (hc : ∀ x ∈ own, x.consistency = []) (hn : 1 ≤ n) (hd : ∀ t, d.contents c!"dso_list" = some t → t.length + 3 ≤ n) : libs.length ≤ n := by
  unfold Libraries at h
  split at h
  · next t _ ht =>
    obtain ⟨dsos, h1, h2⟩ := h
    obtain ⟨d1, d2⟩ := dsoLoop_plain t.length t h1
    have := hd t ht
    unfold Joined at h2
    split at h2
    · rw [h2]; omega
    · obtain ⟨s, hs, rfl⟩ := h2
      have hp : ∀ x ∈ s, x.consistency = [] := fun x hx => (List.mem_append.1 (hs.1.subset hx)).elim (hc x) (d2 x)
      have := (uniq_plain hp).1
      have := hs.1.length_eq
      rw [List.length_append] at this
      omega
  · rw [h]; omega

theorem interpreter_length {d : Dir} {libs ps : List Package} (h : Abrt.IsInterpreter d libs ps) : ps.length ≤ libs.length + 1 := by
  unfold Abrt.IsInterpreter at h
  split at h
  · rw [h]; omega
  · rw [h]; omega
  · rcases h with ⟨_, rfl⟩ | ⟨n, e, v, r, a, _, rfl⟩
    · omega
    · rw [List.length_append]; exact Nat.le_refl _

end Satyr.Heap
