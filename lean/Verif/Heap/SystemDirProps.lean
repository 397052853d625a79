import Verif.Heap.SystemDirLemmas
import Verif.Heap.PackageDirProps
/-!
# Operating system, component and number of occurrences of a problem directory in memory

C153: memory after they are read.
-/
namespace Satyr.Heap
open Satyr.CStr
open Satyr.Abrt (Dir IsOs)
open Satyr.Os (OperatingSystem)

/-! ## Specification -/

/-- Whether name and version can be taken from the file `os_info`, and what it says. -/
def fromInfo (d : Dir) : Bool × OperatingSystem :=
  match d.contents c!"os_info" with
  | none => (false, {})
  | some t => Os.parseEtcOsRelease t {}

/-- The texts to which nothing points: members that were written more than once, and members from `os_info` that were written again from
`os_release`. -/
def lostSystem (d : Dir) : List Str :=
  ((d.contents c!"os_info").elim [] fun t => lostTexts {} (Os.parseOsRelease t)) ++
    if (fromInfo d).1 then [] else (d.contents c!"os_release").elim [] fun t => lostRelease (fromInfo d).2 t

/-- Can name and version be read from one of the two files? -/
def systemNamed (d : Dir) : Bool := (fromInfo d).1 || ((d.contents c!"os_release").bind Os.parseSystemRelease).isSome

/-- The number of messages: one for each file that is looked for and cannot be read, and one if there are no name and version. -/
def systemMessages (d : Dir) : Nat :=
  unread d c!"os_info" + (if (fromInfo d).1 then 0 else unread d c!"os_release") +
    if systemNamed d then (if d.contents c!"architecture" = none then 1 else unread d c!"environ") else 1

/-- Name and version. -/
def systemBase (d : Dir) : Option OperatingSystem :=
  if (fromInfo d).1 then some (fromInfo d).2
  else (d.contents c!"os_release").bind fun t => (Os.parseSystemRelease t).map fun r => { (fromInfo d).2 with name := some r.1, version := some r.2 }

/-- The operating system. -/
def systemOf (d : Dir) : Option OperatingSystem :=
  (systemBase d).bind fun o => (d.contents c!"architecture").map fun a =>
    { o with architecture := some a, desktop := (d.contents c!"environ").bind Abrt.desktopOf }

theorem systemBase_iff (d : Dir) (b : OperatingSystem) : systemBase d = some b ↔ Abrt.IsVersion d b := by
  have hi : fromInfo d = match d.contents c!"os_info" with | none => (false, {}) | some t => Os.parseEtcOsRelease t {} := rfl
  have key : systemBase d = some b ↔ ((fromInfo d).1 = true ∧ (fromInfo d).2 = b) ∨ ((fromInfo d).1 = false ∧
      ∃ t n v, d.contents c!"os_release" = some t ∧ Os.parseSystemRelease t = some (n, v) ∧
        b = { (fromInfo d).2 with name := some n, version := some v }) := by
    unfold systemBase
    by_cases c : (fromInfo d).1 = true
    · rw [if_pos c]; simp [c]
    · have c' : (fromInfo d).1 = false := by simpa using c
      rw [if_neg c, Option.bind_eq_some_iff, c']
      simp only [Option.map_eq_some_iff]
      constructor
      · rintro ⟨t, h1, ⟨n, v⟩, h2, h3⟩
        exact .inr ⟨trivial, t, n, v, h1, h2, h3.symm⟩
      · rintro (⟨h, _⟩ | ⟨_, t, n, v, h1, h2, h3⟩)
        · cases h
        · exact ⟨t, h1, (n, v), h2, h3.symm⟩
  rw [key, Abrt.IsVersion]
  constructor
  · rintro (⟨h1, h2⟩ | ⟨h1, t, n, v, h2, h3, h4⟩)
    · left
      cases hc : d.contents c!"os_info" with
      | none => rw [hi, hc] at h1; cases h1
      | some t =>
        rw [hi, hc] at h1 h2
        exact ⟨t, rfl, Prod.ext h1 h2⟩
    · right
      refine ⟨(fromInfo d).2, t, n, v, ?_, h2, h3, h4⟩
      cases hc : d.contents c!"os_info" with
      | none => rw [hi, hc]; exact Or.inl ⟨rfl, rfl⟩
      | some t =>
        rw [hi, hc] at h1
        rw [hi, hc]
        exact Or.inr ⟨t, rfl, Prod.ext h1 rfl⟩
  · rintro (⟨t, h2, h3⟩ | ⟨left, t, n, v, h2, h3, h4, rfl⟩)
    · left
      rw [hi, h2]
      dsimp only
      rw [h3]
      exact ⟨rfl, rfl⟩
    · right
      rcases h2 with ⟨h2, rfl⟩ | ⟨i, h2, h5⟩
      · rw [hi, h2]
        exact ⟨rfl, t, n, v, h3, h4, rfl⟩
      · rw [hi, h2]
        dsimp only
        rw [h5]
        exact ⟨rfl, t, n, v, h3, h4, rfl⟩

theorem systemOf_iff (d : Dir) (o : OperatingSystem) : systemOf d = some o ↔ IsOs d o := by
  have hv := systemBase_iff d
  have hd : ∀ q : Option Str, q = (d.contents c!"environ").bind Abrt.desktopOf ↔
      ∀ x, q = some x ↔ ∃ e, d.contents c!"environ" = some e ∧ Abrt.DesktopText e x := fun q => by
    have h2 : ∀ x, (d.contents c!"environ").bind Abrt.desktopOf = some x ↔ ∃ e, d.contents c!"environ" = some e ∧ Abrt.DesktopText e x := by
      intro x
      rw [Option.bind_eq_some_iff]
      simp only [Abrt.desktopOf_iff]
    constructor
    · rintro rfl; exact h2
    · intro h
      apply Option.ext
      intro x
      rw [h, h2]
  rw [systemOf, Option.bind_eq_some_iff]
  constructor
  · rintro ⟨b, h1, h2⟩
    rw [Option.map_eq_some_iff] at h2
    obtain ⟨a, h2, rfl⟩ := h2
    exact ⟨a, b, h2, (hv b).1 h1, rfl, rfl, rfl, rfl, rfl, rfl, (hd _).1 rfl⟩
  · rintro ⟨a, b, h1, h2, h3, h4, h5, h6, h7, h8, h9⟩
    refine ⟨b, (hv b).2 h2, ?_⟩
    rw [h1, Option.map_some, ← (hd _).2 h9]
    obtain ⟨n, v, ar, c, va, u, de⟩ := o
    cases h3; cases h4; cases h5; cases h6; cases h7; cases h8
    rfl

theorem callback_keeps (o : OperatingSystem) (k v : Str) : (Os.callback o k v).architecture = o.architecture ∧ (Os.callback o k v).desktop = o.desktop := by
  unfold Os.callback
  split
  · exact ⟨rfl, rfl⟩
  split
  · split <;> exact ⟨rfl, rfl⟩
  split
  · exact ⟨rfl, rfl⟩
  split
  · exact ⟨rfl, rfl⟩
  split <;> exact ⟨rfl, rfl⟩

theorem fold_keeps : ∀ (l : List (Str × Str)) (o : OperatingSystem), (l.foldl (fun o x => Os.callback o x.1 x.2) o).architecture = o.architecture ∧
    (l.foldl (fun o x => Os.callback o x.1 x.2) o).desktop = o.desktop
  | [], _ => ⟨rfl, rfl⟩
  | x :: l, o => by
    obtain ⟨h1, h2⟩ := fold_keeps l (Os.callback o x.1 x.2)
    obtain ⟨h3, h4⟩ := callback_keeps o x.1 x.2
    exact ⟨h1.trans h3, h2.trans h4⟩

theorem fromInfo_keeps (d : Dir) : (fromInfo d).2.architecture = none ∧ (fromInfo d).2.desktop = none := by
  unfold fromInfo
  cases d.contents c!"os_info" with
  | none => exact ⟨rfl, rfl⟩
  | some t => exact fold_keeps (Os.parseOsRelease t) {}

theorem afterRelease_arch (o : OperatingSystem) (t : Str) : (afterRelease o t).architecture = o.architecture := by
  unfold afterRelease; split <;> rfl

theorem afterRelease_desk (o : OperatingSystem) (t : Str) : (afterRelease o t).desktop = o.desktop := by
  unfold afterRelease; split <;> rfl

theorem afterRelease_ok (o : OperatingSystem) {t : Str} {r : Str × Str} (h : Os.parseSystemRelease t = some r) :
    afterRelease o t = { o with name := some r.1, version := some r.2 } := by
  have hs : strstrI c!" release " t ≠ none := fun hs => by
    rw [Os.parseSystemRelease, hs] at h; cases h
  unfold afterRelease
  rw [h]
  cases hs' : strstrI c!" release " t with
  | none => exact absurd hs' hs
  | some i => rfl

theorem newSystem_spec (A : Allocator) (m : Mem) : newSystem A m = .abort ∨ ∃ p m', newSystem A m = .ok (p, m') ∧
    Built .system .null m m' p (systemPart {}) := by
  rw [newSystem]
  rcases new_spec A .system .null m with a | ⟨p, m₁, a, hb⟩
  · rw [a]; exact .inl rfl
  rw [a, bind_ok]
  dsimp only
  obtain ⟨m₂, a, hb⟩ := setData_spec hb [0]
  rw [a, bind_ok]
  exact .inr ⟨p, m₂, rfl, hb⟩

/-- C153: either the program stops for lack of memory; or the operating system is the one that the files say, or NULL if they say none.
Memory is as before with the operating system in addition, one message for each file looked for that cannot be read or that says nothing,
and the texts lost. -/
theorem C153_system (A : Allocator) (d : Dir) (m : Mem) (e : Ptr) : dirSystem A d m e = .abort ∨ ∃ m₁ e',
    Left m e (systemMessages d) (lostSystem d) m₁ e' ∧
    ((∃ o p m' f, IsOs d o ∧ dirSystem A d m e = .ok (p, m', e') ∧ Holds m' (systemChain (some o)) true p f ∧ Adds m₁ m' f) ∨
     ((∀ o, ¬ IsOs d o) ∧ dirSystem A d m e = .ok (0, m₁, e'))) := by
  simp only [← systemOf_iff]
  rw [dirSystem]
  rcases newSystem_spec A m with a | ⟨p, m₁, a, hb⟩
  · rw [a]; exact .inl rfl
  rw [a, bind_ok]
  dsimp only
  rcases osFile_spec A d c!"os_info" (p := p) (o := {}) (read := fun s => etcOsRelease A s p) (f := fun s => (Os.parseEtcOsRelease s {}).1)
    (L := fun t => lostTexts {} (Os.parseOsRelease t)) (g := fun s => (Os.parseEtcOsRelease s {}).2)
    (fun s {m₀ m} e h => by simpa using etcOsRelease_spec A s (.nil (m := m₀) (e := e)) h) (.nil (m := m) (e := e)) hb with a | ⟨b₁, m₂, e₁, a, hl, hb⟩
  · rw [a]; exact .inl rfl
  rw [a, bind_ok]
  dsimp only
  have hf1 : (d.contents c!"os_info").elim false (fun s => (Os.parseEtcOsRelease s {}).1) = (fromInfo d).1 := by
    unfold fromInfo; cases d.contents c!"os_info" <;> rfl
  have hf2 : (d.contents c!"os_info").elim {} (fun s => (Os.parseEtcOsRelease s {}).2) = (fromInfo d).2 := by
    unfold fromInfo; cases d.contents c!"os_info" <;> rfl
  rw [hf1]
  rw [hf2] at hb
  rw [Nat.zero_add, List.nil_append] at hl
  obtain ⟨k1, k2⟩ := fromInfo_keeps d
  have rest : ∀ {b m₂ e₁ k ts} (o : OperatingSystem), Left m e k ts b e₁ → Built .system .null b m₂ p (systemPart o) → o.architecture = none →
      o.desktop = none → systemBase d = some o → osRest A d p m₂ e₁ = .abort ∨ ∃ m₁ e',
      Left m e (k + if d.contents c!"architecture" = none then 1 else unread d c!"environ") ts m₁ e' ∧
      ((∃ o p' m' f, systemOf d = some o ∧ osRest A d p m₂ e₁ = .ok (p', m', e') ∧ Holds m' (systemChain (some o)) true p' f ∧ Adds m₁ m' f) ∨
       ((∀ o, ¬ systemOf d = some o) ∧ osRest A d p m₂ e₁ = .ok (0, m₁, e'))) := by
    intro b m₂ e₁ k ts o hl hb ha hd ho
    rw [systemOf, ho]
    rcases osRest_spec A d hl hb ha hd with a | h
    · exact .inl a
    cases hc : d.contents c!"architecture" with
    | none =>
      rw [hc] at h
      obtain ⟨m₁, e', h1, h2⟩ := h
      rw [if_pos rfl]
      exact .inr ⟨m₁, e', h2, .inr ⟨by simp, h1⟩⟩
    | some a =>
      rw [hc] at h
      obtain ⟨m₁, m', e', h1, h2, h3⟩ := h
      rw [if_neg (by simp)]
      obtain ⟨w, f, _, j2, j3, j4⟩ := h3.holds
      rw [j2] at j3
      exact .inr ⟨m₁, e', h2, .inl ⟨_, p, m', f, rfl, h1, j3, j4⟩⟩
  by_cases c : (fromInfo d).1 = true
  · have hbase : systemBase d = some (fromInfo d).2 := if_pos c
    have hl' : lostSystem d = (d.contents c!"os_info").elim [] fun t => lostTexts {} (Os.parseOsRelease t) := by
      rw [lostSystem, if_pos c, List.append_nil]
    have hm' : systemMessages d = unread d c!"os_info" + if d.contents c!"architecture" = none then 1 else unread d c!"environ" := by
      rw [systemMessages, if_pos c, if_pos (by rw [systemNamed, c]; rfl), Nat.add_zero]
    rw [hl', hm', if_pos c, bind_ok, c]
    dsimp only
    rw [if_neg (by simp)]
    exact rest _ hl hb k1 k2 hbase
  · have c' : (fromInfo d).1 = false := by simpa using c
    rw [if_neg c]
    rcases osFile_spec A d c!"os_release" (p := p) (o := (fromInfo d).2) (read := fun s => etcSystemRelease A s p)
      (f := fun s => (Os.parseSystemRelease s).isSome) (L := fun t => lostRelease (fromInfo d).2 t) (g := fun s => afterRelease (fromInfo d).2 s)
      (fun s {m₀ m} e h => etcSystemRelease_spec A s e h) hl hb with a | ⟨b₂, m₃, e₂, a, hl, hb⟩
    · rw [a]; exact .inl rfl
    rw [a, bind_ok]
    dsimp only
    have hl' : lostSystem d = ((d.contents c!"os_info").elim [] fun t => lostTexts {} (Os.parseOsRelease t)) ++
        (d.contents c!"os_release").elim [] fun t => lostRelease (fromInfo d).2 t := by
      rw [lostSystem, if_neg c]
    have hbase : systemBase d = (d.contents c!"os_release").bind fun t => (Os.parseSystemRelease t).map fun r =>
        { (fromInfo d).2 with name := some r.1, version := some r.2 } := if_neg c
    rw [hl', systemMessages, if_neg c, systemNamed, c', Bool.false_or]
    by_cases cn : ((d.contents c!"os_release").bind Os.parseSystemRelease).isSome = true
    · rw [if_pos cn]
      cases hc : d.contents c!"os_release" with
      | none => rw [hc] at cn; cases cn
      | some t =>
        rw [hc] at cn hl hb hbase
        cases hp : Os.parseSystemRelease t with
        | none => rw [Option.bind_some, hp] at cn; cases cn
        | some r =>
          rw [Option.bind_some, hp] at hbase
          rw [Option.elim_some, hp, if_neg (by simp)]
          refine rest _ hl hb ?_ ?_ ?_
          · rw [Option.elim_some, afterRelease_arch]; exact k1
          · rw [Option.elim_some, afterRelease_desk]; exact k2
          · rw [hbase]; exact congrArg some (afterRelease_ok _ hp).symm
    · have hfalse : (d.contents c!"os_release").elim false (fun s => (Os.parseSystemRelease s).isSome) = false := by
        cases hc : d.contents c!"os_release" with
        | none => rfl
        | some t => rw [hc] at cn; simpa using cn
      have hnone : systemBase d = none := by
        rw [hbase]
        cases hc : d.contents c!"os_release" with
        | none => rfl
        | some t =>
          rw [hc] at cn
          cases hp : Os.parseSystemRelease t with
          | none => rw [Option.bind_some, hp]; rfl
          | some r => rw [Option.bind_some, hp] at cn; exact absurd rfl cn
      rw [if_neg cn, hfalse, if_pos rfl, hb.release (by decide) (show (1 + 0 + 0 + 0 + 0 + 0 : Nat) < 16 by omega), bind_ok]
      rcases newText A [] b₂ with a | ⟨z, m₄, a, z0, z1, rfl⟩
      · rw [a]; exact .inl rfl
      rw [a, bind_ok]
      refine .inr ⟨_, z, hl.told z0 z1, .inr ⟨fun o => ?_, rfl⟩⟩
      rw [systemOf, hnone]
      simp

/-! ## Nothing lost -/

theorem Left.nothing {m e m' e'} (h : Left m e 0 [] m' e') : m' = m ∧ e' = e := by
  generalize hk : 0 = k at h
  generalize ht : ([] : List Str) = ts at h
  cases h with
  | nil => exact ⟨rfl, rfl⟩
  | told => cases hk
  | lost => simp at ht

theorem Left.one {m e s m' e'} (h : Left m e 0 [s] m' e') : e' = e ∧ ∃ q, q ≠ 0 ∧ m q = none ∧ m' = m.set q (some (.text s)) := by
  generalize hk : 0 = k at h
  generalize ht : [s] = ts at h
  cases h with
  | nil => cases ht
  | told => cases hk
  | lost h h0 h1 =>
    obtain ⟨a, b⟩ := List.append_inj' (show [] ++ [s] = _ from ht) rfl
    subst hk; subst a; cases b
    obtain ⟨rfl, rfl⟩ := h.nothing
    exact ⟨rfl, _, h0, h1, rfl⟩

theorem lostTexts_nil : ∀ (l : List (Str × Str)) (o : OperatingSystem), (l.map Prod.fst).Nodup →
    (∀ v, (c!"VERSION", v) ∈ l → strstrHas v c!"(Rawhide)" = false) →
    (c!"ID" ∈ l.map Prod.fst → o.name = none) → (c!"VERSION_ID" ∈ l.map Prod.fst → o.version = none) →
    (c!"CPE_NAME" ∈ l.map Prod.fst → o.cpe = none) → (c!"VARIANT_ID" ∈ l.map Prod.fst → o.variant = none) → lostTexts o l = []
  | [], _, _, _, _, _, _, _ => rfl
  | (k, v) :: l, o, hn, hr, h1, h2, h3, h4 => by
    rw [List.map_cons, List.nodup_cons] at hn
    obtain ⟨hk, hn⟩ := hn
    rw [List.map_cons] at h1 h2 h3 h4
    have hr' : ∀ v, (c!"VERSION", v) ∈ l → strstrHas v c!"(Rawhide)" = false := fun v h => hr v (List.mem_cons_of_mem _ h)
    have hk' : ∀ x, k = x → ¬ x ∈ l.map Prod.fst := fun x h => h ▸ hk
    have a1 := fun h => h1 (List.mem_cons_of_mem _ h)
    have a2 := fun h => h2 (List.mem_cons_of_mem _ h)
    have a3 := fun h => h3 (List.mem_cons_of_mem _ h)
    have a4 := fun h => h4 (List.mem_cons_of_mem _ h)
    have hl : lostText o k v = none := by
      unfold lostText
      split
      · next h => exact h1 (h ▸ List.mem_cons_self)
      split
      · next h => rw [h2 (h ▸ List.mem_cons_self)]; rfl
      split
      · next h => exact h3 (h ▸ List.mem_cons_self)
      split
      · next h => exact h4 (h ▸ List.mem_cons_self)
      rfl
    rw [lostTexts, hl]
    have hc : lostTexts (Os.callback o k v) l = [] := by
      unfold Os.callback
      simp only [strcmp_eq_zero]
      split
      · next h => exact lostTexts_nil l _ hn hr' (fun x => absurd x (hk' _ h)) a2 a3 a4
      split
      · next h =>
        split
        · exact lostTexts_nil l _ hn hr' a1 (fun x => absurd x (hk' _ h)) a3 a4
        · exact lostTexts_nil l _ hn hr' a1 a2 a3 a4
      split
      · next h =>
        have := hr v (h.1 ▸ List.mem_cons_self)
        rw [this] at h
        cases h.2
      split
      · next h => exact lostTexts_nil l _ hn hr' a1 a2 (fun x => absurd x (hk' _ h)) a4
      split
      · next h => exact lostTexts_nil l _ hn hr' a1 a2 a3 (fun x => absurd x (hk' _ h))
      exact lostTexts_nil l _ hn hr' a1 a2 a3 a4
    rw [hc]
    rfl

/-- C153, for well-formed directories: the file `os_info` says name and version, says nothing twice, and its version is not that of a
development release; the other two files can be read. Then nothing but the operating system is left in memory and there is no message.

What is missing from the property: it does not hold if a member is written twice, see `C153_not_repeated`, `C153_not_rawhide` and
`C153_not_fallback`. -/
theorem C153_clean_partial (A : Allocator) (d : Dir) (m : Mem) (e : Ptr) {t a v} (ht : d.contents c!"os_info" = some t)
    (hn : ((Os.parseOsRelease t).map Prod.fst).Nodup) (hr : ∀ v, (c!"VERSION", v) ∈ Os.parseOsRelease t → strstrHas v c!"(Rawhide)" = false)
    (hc : (Os.parseEtcOsRelease t {}).1 = true) (ha : d.contents c!"architecture" = some a) (hv : d.contents c!"environ" = some v) :
    dirSystem A d m e = .abort ∨ ∃ o p m' f, IsOs d o ∧ dirSystem A d m e = .ok (p, m', e) ∧
      Holds m' (systemChain (some o)) true p f ∧ Adds m m' f := by
  have hf : (fromInfo d).1 = true := by rw [fromInfo, ht]; exact hc
  have hl : lostSystem d = [] := by
    rw [lostSystem, if_pos hf, ht, Option.elim_some, List.append_nil]
    exact lostTexts_nil _ _ hn hr (fun _ => rfl) (fun _ => rfl) (fun _ => rfl) (fun _ => rfl)
  have hm : systemMessages d = 0 := by
    rw [systemMessages, if_pos hf, if_pos (by rw [systemNamed, hf]; rfl), if_neg (by rw [ha]; simp)]
    simp [unread, ht, hv]
  rcases C153_system A d m e with h | ⟨m₁, e', h1, h2⟩
  · exact .inl h
  rw [hl, hm] at h1
  obtain ⟨rfl, rfl⟩ := h1.nothing
  rcases h2 with h2 | ⟨h2, _⟩
  · exact .inr h2
  · have ho : systemOf d = some { (fromInfo d).2 with architecture := some a, desktop := (d.contents c!"environ").bind Abrt.desktopOf } := by
      rw [systemOf, systemBase, if_pos hf, Option.bind_some, ha]; rfl
    exact absurd ((systemOf_iff d _).1 ho) (h2 _)

/-! ## Texts lost -/

theorem lost_one (A : Allocator) {d : Dir} (m : Mem) (e : Ptr) {s : Str} (hl : lostSystem d = [s]) (hm : systemMessages d = 0)
    (hs : systemOf d ≠ none) : dirSystem A d m e = .abort ∨ ∃ o p m' q f, IsOs d o ∧ dirSystem A d m e = .ok (p, m', e) ∧
      Holds m' (systemChain (some o)) true p f ∧ m' q = some (.text s) ∧ Adds m m' (q :: f) := by
  rcases C153_system A d m e with h | ⟨m₁, e', h1, h2⟩
  · exact .inl h
  rw [hl, hm] at h1
  obtain ⟨rfl, q, q0, q1, rfl⟩ := h1.one
  rcases h2 with ⟨o, p, m', f, g1, g2, g3, g4⟩ | ⟨h2, _⟩
  · have hq : q ∉ f := fun h => by have := g4.fresh q h; rw [set_eq] at this; cases this
    refine .inr ⟨o, p, m', q, f, g1, g2, g3, by rw [g4.same q hq, set_eq], List.nodup_cons.2 ⟨hq, g4.nodup⟩, ?_, ?_, ?_⟩
    · intro x hx
      rcases List.mem_cons.1 hx with rfl | hx
      · exact q1
      · have := g4.fresh x hx
        rwa [set_ne _ _ (show x ≠ q from fun e => hq (e ▸ hx))] at this
    · intro x hx
      rcases List.mem_cons.1 hx with rfl | hx
      · rw [g4.same x hq, set_eq]; simp
      · exact g4.used x hx
    · intro x hx
      rw [List.mem_cons, not_or] at hx
      rw [g4.same x hx.2, set_ne _ _ hx.1]
  · cases ho : systemOf d with
    | none => exact absurd ho hs
    | some o => exact absurd ((systemOf_iff d o).1 ho) (h2 o)

/-- A directory with the operating system. -/
def installed153 (info release : Str) : List (Str × Str) :=
  [(c!"os_info", info), (c!"os_release", release), (c!"architecture", c!"i686"), (c!"environ", c!"A=b\nDESKTOP_SESSION=x\n")]

set_option maxRecDepth 40000 in
/-- C153: the file `os_info` says the name twice. The operating system is complete, but the first name stays allocated although nothing
points to it. -/
theorem C153_not_repeated (A : Allocator) (m : Mem) (e : Ptr) :
    let d := filesOf (installed153 c!"ID=a\nVERSION_ID=1\nID=b\n" c!"")
    dirSystem A d m e = .abort ∨ ∃ o p m' q f, IsOs d o ∧ dirSystem A d m e = .ok (p, m', e) ∧
      Holds m' (systemChain (some o)) true p f ∧ m' q = some (.text c!"a") ∧ Adds m m' (q :: f) :=
  lost_one A m e (by decide +kernel) (by decide +kernel) (by decide +kernel)

set_option maxRecDepth 40000 in
/-- C153: a development release, every key once. The number of the version stays allocated. -/
theorem C153_not_rawhide (A : Allocator) (m : Mem) (e : Ptr) :
    let d := filesOf (installed153 c!"ID=fedora\nVERSION=\"24 (Rawhide)\"\nVERSION_ID=24\n" c!"")
    dirSystem A d m e = .abort ∨ ∃ o p m' q f, IsOs d o ∧ dirSystem A d m e = .ok (p, m', e) ∧
      Holds m' (systemChain (some o)) true p f ∧ m' q = some (.text c!"24") ∧ Adds m m' (q :: f) :=
  lost_one A m e (by decide +kernel) (by decide +kernel) (by decide +kernel)

set_option maxRecDepth 40000 in
/-- C153: the file `os_info` says no version, so that name and version are taken from `os_release`. The name from `os_info` stays
allocated. -/
theorem C153_not_fallback (A : Allocator) (m : Mem) (e : Ptr) :
    let d := filesOf (installed153 c!"ID=a\n" c!"Fedora release 20 (Heisenbug)")
    dirSystem A d m e = .abort ∨ ∃ o p m' q f, IsOs d o ∧ dirSystem A d m e = .ok (p, m', e) ∧
      Holds m' (systemChain (some o)) true p f ∧ m' q = some (.text c!"a") ∧ Adds m m' (q :: f) :=
  lost_one A m e (by decide +kernel) (by decide +kernel) (by decide +kernel)

/-! ## The number of occurrences and the component -/

/-- C153: the number of occurrences. Memory is unchanged if there is one, otherwise there is one message more. -/
theorem C153_count (A : Allocator) (d : Dir) (errno : Nat) (m : Mem) (e : Ptr) : dirCount A d errno m e = .abort ∨
    (∃ s n, d.contents c!"count" = some s ∧ Abrt.CountText s n ∧ (n = 0 → errno = 0) ∧ dirCount A d errno m e = .ok (some n, m, e)) ∨
    ((∀ s n, d.contents c!"count" = some s → Abrt.CountText s n → n = 0 ∧ errno ≠ 0) ∧
      ∃ z m', Holding m z [] m' ∧ dirCount A d errno m e = .ok (none, m', z)) := by
  rw [dirCount]
  rcases fileText_spec A d c!"count" m e with a | h
  · rw [a]; exact .inl rfl
  cases hc : d.contents c!"count" with
  | none =>
    rw [hc] at h
    obtain ⟨q, m', a, h⟩ := h
    rw [a, bind_ok]
    exact .inr (.inr ⟨fun s n h' => (by cases h'), q, m', h, rfl⟩)
  | some s =>
    rw [hc] at h
    obtain ⟨q, m', a, h⟩ := h
    rw [a, bind_ok]
    dsimp only
    rw [if_neg h.1, readText_spec h, bind_ok]
    cases ho : Abrt.occurrencesOf errno s with
    | none =>
      dsimp only
      rcases newText A [] m' with a | ⟨z, m'', a, hz⟩
      · rw [a]; exact .inl rfl
      rw [a, bind_ok]
      obtain ⟨m₁, g1, g2⟩ := h.below hz
      dsimp only
      rw [freeBlock_text g2, bind_ok]
      refine .inr (.inr ⟨fun s' n e' hn => ?_, z, m₁, g1, rfl⟩)
      cases e'
      by_contra hcon
      have : Abrt.occurrencesOf errno s = some n := (Abrt.occurrencesOf_iff errno s n).2 ⟨hn, fun h0 => by by_contra he; exact hcon ⟨h0, he⟩⟩
      rw [ho] at this
      cases this
    | some n =>
      obtain ⟨h1, h2⟩ := (Abrt.occurrencesOf_iff errno s n).1 ho
      dsimp only
      rw [freeBlock_text h, bind_ok]
      exact .inr (.inl ⟨s, n, rfl, h1, h2, rfl⟩)

/-- C153: the component. Its text is the only thing added to memory; there is one message if the file that says it cannot be read. -/
theorem C153_component (A : Allocator) (d : Dir) (m : Mem) (e : Ptr) : dirComponent A d m e = .abort ∨
    (match Abrt.componentName d with
     | some s => ∃ q m', Holding m q s m' ∧ dirComponent A d m e = .ok (q, m', e)
     | none => if d.exist c!"package" ∨ d.exist c!"executable" then ∃ z m', Holding m z [] m' ∧ dirComponent A d m e = .ok (0, m', z)
       else dirComponent A d m e = .ok (0, m, e)) := by
  rw [dirComponent, Abrt.componentName]
  rcases fileExist_spec A d c!"package" m with a | a
  · rw [a]; exact .inl rfl
  rw [a, bind_ok]
  dsimp only
  by_cases c : d.exist c!"package" = true
  · rw [if_pos c, if_pos c]
    rcases fileText_spec A d c!"component" m e with a | h
    · exact .inl a
    right
    cases hc : d.contents c!"component" with
    | some s =>
      rw [hc] at h
      obtain ⟨q, m', a, h⟩ := h
      exact ⟨q, m', h, a⟩
    | none =>
      rw [hc] at h
      obtain ⟨q, m', a, h⟩ := h
      dsimp only
      rw [if_pos (.inl c)]
      exact ⟨q, m', h, a⟩
  rw [if_neg c, if_neg c, unpackaged]
  rcases fileExist_spec A d c!"executable" m with a | a
  · rw [a]; exact .inl rfl
  rw [a, bind_ok]
  dsimp only
  by_cases c' : d.exist c!"executable" = true
  · rw [if_pos c', if_pos c']
    rcases fileText_spec A d c!"executable" m e with a | h
    · rw [a]; exact .inl rfl
    cases hc : d.contents c!"executable" with
    | none =>
      rw [hc] at h
      obtain ⟨q, m', a, h⟩ := h
      rw [a, bind_ok]
      dsimp only [Option.map_none]
      rw [if_pos rfl, if_pos (.inr c')]
      exact .inr ⟨q, m', h, rfl⟩
    | some s =>
      rw [hc] at h
      obtain ⟨q, m', a, h⟩ := h
      rw [a, bind_ok]
      dsimp only [Option.map_some]
      rw [if_neg h.1, readText_spec h, bind_ok, Abrt.baseName_eq]
      rcases newText A ((s.reverse.takeWhile (· ≠ '/')).reverse ++ c!"-unpackaged") m' with a | ⟨z, m'', a, hz⟩
      · rw [a]; exact .inl rfl
      rw [a, bind_ok]
      obtain ⟨m₁, g1, g2⟩ := h.below hz
      dsimp only
      rw [freeBlock_text g2, bind_ok]
      exact .inr ⟨z, m₁, g1, rfl⟩
  · rw [if_neg c', if_neg c']
    dsimp only
    rw [if_neg (not_or.2 ⟨c, c'⟩)]
    exact .inr rfl

/-! ## Non-vacuity -/

/-- The name and version at the address, the address of the message, and the addresses in use. -/
def seen153 (d : Dir) : Option (List (Option Str) × Ptr × List Ptr) :=
  match dirSystem firstFree d (fun _ => none) 0 with
  | .ok (p, m, e) => some ((match m p with
      | some (.record r) => r.texts.map fun q => match m q with | some (.text t) => some t | _ => none
      | _ => []), e, (List.range 20).filter fun x => (m x).isSome)
  | _ => none

-- The hypotheses of `C153_clean_partial` are met.
set_option maxRecDepth 20000 in
example : ((Os.parseOsRelease c!"ID=a\nVERSION_ID=1\nVERSION=1\n").map Prod.fst).Nodup ∧
    (∀ v, (c!"VERSION", v) ∈ Os.parseOsRelease c!"ID=a\nVERSION_ID=1\nVERSION=1\n" → strstrHas v c!"(Rawhide)" = false) ∧
    (Os.parseEtcOsRelease c!"ID=a\nVERSION_ID=1\nVERSION=1\n" {}).1 = true := by
  have h : Os.parseOsRelease c!"ID=a\nVERSION_ID=1\nVERSION=1\n" = [(c!"ID", c!"a"), (c!"VERSION_ID", c!"1"), (c!"VERSION", c!"1")] := by decide +kernel
  refine ⟨by decide +kernel, fun v hv => ?_, by decide +kernel⟩
  rw [h] at hv
  simp at hv
  rw [hv]
  decide +kernel

-- Nothing lost.
set_option synthInstance.maxHeartbeats 400000 in
set_option synthInstance.maxSize 2000 in
set_option maxRecDepth 40000 in
example : seen153 (filesOf (installed153 c!"ID=a\nVERSION_ID=1\nVERSION=1\n" c!"")) =
    some ([some c!"a", some c!"1", some c!"i686", none, some c!"x", none], 0, [1, 2, 3, 4, 5]) := by decide +kernel

-- The first name is lost.
set_option synthInstance.maxHeartbeats 400000 in
set_option synthInstance.maxSize 2000 in
set_option maxRecDepth 40000 in
example : seen153 (filesOf (installed153 c!"ID=a\nVERSION_ID=1\nID=b\n" c!"")) =
    some ([some c!"b", some c!"1", some c!"i686", none, some c!"x", none], 0, [1, 2, 3, 4, 5, 6]) := by decide +kernel

-- The name of the first file is lost.
set_option synthInstance.maxHeartbeats 400000 in
set_option synthInstance.maxSize 2000 in
set_option maxRecDepth 40000 in
example : seen153 (filesOf (installed153 c!"ID=a\n" c!"Fedora release 20 (Heisenbug)")) =
    some ([some c!"fedora", some c!"20", some c!"i686", none, some c!"x", none], 0, [1, 2, 3, 4, 5, 6]) := by decide +kernel

-- No version: nothing but the message.
set_option synthInstance.maxHeartbeats 400000 in
set_option synthInstance.maxSize 2000 in
set_option maxRecDepth 40000 in
example : seen153 (filesOf (installed153 c!"ID=a\n" c!"Fedora")) =
    some ([], 1, [1]) := by decide +kernel

-- Without `os_info` and `environ`: two messages, the first lost.
set_option synthInstance.maxHeartbeats 400000 in
set_option synthInstance.maxSize 2000 in
set_option maxRecDepth 40000 in
example : seen153 (filesOf [(c!"os_release", c!"Fedora release 20 (Heisenbug)"), (c!"architecture", c!"i686")]) =
    some ([some c!"fedora", some c!"20", some c!"i686", none, none, none], 7, [1, 2, 3, 5, 6, 7]) := by decide +kernel

-- Without the architecture: two messages.
set_option synthInstance.maxHeartbeats 400000 in
set_option synthInstance.maxSize 2000 in
set_option maxRecDepth 40000 in
example : seen153 (filesOf [(c!"os_release", c!"Fedora release 20 (Heisenbug)")]) =
    some ([], 6, [3, 6]) := by decide +kernel

/-- The number, the address of the message, and the addresses in use. -/
def counted153 (s : Str) : Option (Option Nat × Ptr × List Ptr) :=
  match dirCount firstFree (filesOf [(c!"count", s)]) 0 (fun _ => none) 0 with
  | .ok (n, m, e) => some (n, e, (List.range 20).filter fun x => (m x).isSome)
  | _ => none

example : counted153 c!"12" = some (some 12, 0, []) ∧ counted153 c!"12x" = some (none, 1, [1]) := by decide +kernel

/-- The text, the address of the message, and the addresses in use. -/
def component153 (l : List (Str × Str)) : Option (Option Str × Ptr × List Ptr) :=
  match dirComponent firstFree (filesOf l) (fun _ => none) 0 with
  | .ok (p, m, e) => some (match m p with | some (.text t) => some t | _ => none, e, (List.range 20).filter fun x => (m x).isSome)
  | _ => none

example : component153 [(c!"package", c!"a"), (c!"component", c!"b")] = some (some c!"b", 0, [2]) := by decide +kernel
example : component153 [(c!"package", c!"a"), (c!"executable", c!"/b")] = some (none, 2, [2]) := by decide +kernel
example : component153 [(c!"executable", c!"/usr/bin/b")] = some (some c!"b-unpackaged", 0, [1]) := by decide +kernel
example : component153 [] = some (none, 0, []) := by decide +kernel

end Satyr.Heap
