import Verif.Heap.JsonModel
import Verif.Heap.Lists
/-!
# Reading structures from JSON

C144: reading a structure adds exactly the memory of the structure; if it cannot be read nothing but the message is left.
-/
namespace Satyr.Heap
open Satyr.CStr
open Satyr.Json

/-! ## Specification -/

/-- The contents of a structure. -/
structure Part where
  data : List Int := []
  texts : List (Option Str) := []
  a : Chain := .nil
  b : Chain := .nil
  c : Chain := .nil
  e : Chain := .nil
  crash : Option Nat := none

/-- The structure as a value; `w` is the pointer to the crash thread. -/
def Part.chain (x : Part) (k : Kind) (w : Ptr) : Chain := .cons k x.data x.texts w x.a x.b x.c x.e .nil

/-- What is in memory is of the right kinds, and not larger than what was read. -/
structure Part.Ok (x : Part) (k : Kind) (j : Value) : Prop where
  length : x.texts.length = (Heap.texts k).length
  a : MemberOk k 0 x.a x.a.Typed
  b : MemberOk k 1 x.b x.b.Typed
  c : MemberOk k 2 x.c x.c.Typed
  e : MemberOk k 3 x.e x.e.Typed
  sizeA : x.a.size < weight j
  sizeB : x.b.size ≤ weight j + 1
  sizeC : x.c.size ≤ 2 * weight j + 1
  sizeE : x.e.size ≤ weight j
  crash : ∀ i, x.crash = some i → i < x.a.length ∧ k = .coreTrace

/-- Memory `m` is memory `m₀` with the structure `x` at `p` in addition. -/
def Built (k : Kind) (j : Value) (m₀ m : Mem) (p : Ptr) (x : Part) : Prop :=
  x.Ok k j ∧ ∃ r fs fa fb fc fe, p ≠ 0 ∧ m p = some (.record r) ∧ r.kind = k ∧ r.data = x.data ∧ Texts m x.texts r.texts fs ∧
    Holds m x.a true r.a fa ∧ Holds m x.b true r.b fb ∧ Holds m x.c true r.c fc ∧ Holds m x.e true r.e fe ∧ r.next = 0 ∧
    r.crashThread = x.crash.elim 0 (nth m r.a) ∧ Adds m₀ m (p :: (fs ++ (fa ++ (fb ++ (fc ++ fe)))))

/-- Memory is as before, except for the message. -/
def Reported (m : Mem) (err : Option Ptr) (msg : Str) (s : State) : Prop :=
  match err with
  | none => s = ⟨m, none⟩
  | some _ => ∃ q, m q = none ∧ q ≠ 0 ∧ s = ⟨m.set q (some (.text msg)), some q⟩

/-- What a step does that is to give `r`; if it fails, what is there so far has the property `Q`. -/
def Steps (k : Kind) (j : Value) (m₀ : Mem) (err : Option Ptr) (p : Ptr) (Q : Part → Prop) (r : Except Str Part) (o : Out (Bool × State)) :
    Prop :=
  o = .abort ∨ match r with
  | .ok x => ∃ m, o = .ok (true, ⟨m, err⟩) ∧ Built k j m₀ m p x
  | .error msg => ∃ m x s, o = .ok (false, s) ∧ Built k j m₀ m p x ∧ Q x ∧ Reported m err msg s

/-- What a function does that is to give `r`. -/
def Reads (k : Kind) (j : Value) (m : Mem) (err : Option Ptr) (r : Except Str Part) (o : Out (Ptr × State)) : Prop :=
  o = .abort ∨ match r with
  | .ok x => ∃ p m', o = .ok (p, ⟨m', err⟩) ∧ Built k j m m' p x
  | .error msg => ∃ s, o = .ok (0, s) ∧ Reported m err msg s

/-! ## What is read, without memory -/

/-- The mark of a thread. -/
def markOf (marked : Bool) (v : Value) : Option Bool :=
  if marked = false then some false
  else
    match get v c!"crash_thread" with
    | none => some false
    | some (.bool b) => some b
    | some _ => none

/-- The structures of an array. -/
def itemsOf (item : Value → Except Str Chain) (marked : Bool) : List Value → Part → Except Str Part
  | [], x => .ok x
  | v :: l, x =>
    match item v with
    | .error e => .error e
    | .ok c =>
      match markOf marked v with
      | none => .error (typeError c!"crash_thread" c!"boolean")
      | some b => itemsOf item marked l { x with a := x.a.append c, crash := if b then some x.a.length else x.crash }

/-- The modules. -/
def moduleChain : List Str → Chain
  | [] => .cons .module [] [none] 0 .nil .nil .nil .nil .nil
  | s :: l => .cons .module [] [some s] 0 .nil .nil .nil .nil (moduleChain l)

/-- The engine or the runtime. -/
def partOf (j : Value) (key missing unknown : Str) (of : Str → Nat) : Except Str Nat :=
  match get j key with
  | none => .error missing
  | some (.str str) =>
    if strcmp str c!"<unknown>" = 0 then .ok 0 else if of str = 0 then .error (unknown ++ (str ++ c!"'")) else .ok (of str)
  | some _ => .error (typeError key c!"string")

/-- The platform. -/
def platformOf (j : Value) : Except Str Nat :=
  match partOf j c!"engine" c!"No 'engine' member" c!"Unknown JavaScript engine '" Js.engineOf with
  | .error e => .error e
  | .ok engine =>
    match partOf j c!"runtime" c!"No 'runtime' member" c!"Unknown JavaScript runtime '" Js.runtimeOf with
    | .error e => .error e
    | .ok runtime => .ok (Js.assemble engine runtime)

def Part.add (x : Part) (l : List Int) : Part := { x with data := x.data ++ l }
def Part.put (x : Part) (k : Kind) (t : Text) (s : Str) : Part := { x with texts := x.texts.set ((Heap.texts k).idxOf t) (some s) }

/-- One member. -/
def stepOf (item : Kind → Value → Except Str Part) (k : Kind) (j : Value) (x : Part) : Step → Except Str Part
  | .data f =>
    match f j with
    | .error msg => .error msg
    | .ok l => .ok (x.add l)
  | .text key t =>
    match get j key with
    | none => .ok x
    | some (.str s) => .ok (x.put k t s)
    | some _ => .error (typeError key c!"string")
  | .either key special t =>
    match get j key with
    | some (.str s) => .ok ((x.add [0]).put k t s)
    | some _ => .error (typeError key c!"string")
    | none =>
      match get j special with
      | some (.str s) => .ok ((x.add [1]).put k t s)
      | some _ => .error (typeError special c!"string")
      | none => .ok (x.add [0])
  | .list key kind marked =>
    match get j key with
    | none => .ok x
    | some (.arr l) => itemsOf (fun v => (item kind v).map fun y => y.chain kind 0) marked l x
    | some _ => .error (typeError key c!"array")
  | .modules =>
    match Koops.modulesFromJson j with
    | .ok (some none) => .ok x
    | .ok (some (some l)) => .ok { x with b := moduleChain l }
    | _ => .error (typeError c!"modules" c!"array")
  | .platform =>
    match get j c!"platform" with
    | none => .ok (x.add [0])
    | some v =>
      match platformOf v with
      | .error e => .error e
      | .ok n => .ok (x.add [(n : Int)])

def stepsOf (item : Kind → Value → Except Str Part) (k : Kind) (j : Value) : List Step → Part → Except Str Part
  | [], x => .ok x
  | t :: l, x =>
    match stepOf item k j x t with
    | .error e => .error e
    | .ok x => stepsOf item k j l x

/-- The contents of the structure. -/
def partOfJson : Nat → Kind → Value → Except Str Part
  | 0, _, _ => .error []
  | d + 1, k, j =>
    if isObject j = false then .error (typeError (title k) c!"object")
    else stepsOf (partOfJson d) k j (steps k) { texts := List.replicate (texts k).length none }

/-! ## Lemmas: memory -/

theorem Adds.erase {m m' : Mem} {g : List Ptr} (h : Adds m m' g) : erase m' g = m := by
  funext x
  unfold Heap.erase
  split
  · rename_i hx; exact (h.fresh x hx).symm
  · rename_i hx; exact h.same x hx

theorem erase_set (m : Mem) (g : List Ptr) (q : Ptr) (c : Cell) (hq : q ∉ g) :
    Heap.erase (m.set q (some c)) g = (Heap.erase m g).set q (some c) := by
  funext x
  unfold Heap.erase Mem.set
  by_cases hx : x = q
  · subst hx; simp [hq]
  · simp [hx]

theorem Reported.ext {m err msg s} (h : Reported m err msg s) : Ext m s.mem := by
  unfold Reported at h
  cases err with
  | none => subst h; exact fun _ _ => rfl
  | some e =>
    obtain ⟨q, h1, _, rfl⟩ := h
    exact fun x hx => set_ne _ _ fun e => hx (e ▸ h1)

/-- Removing what was added before the message. -/
theorem Reported.erase {m₀ m err msg s g} (ha : Adds m₀ m g) (h : Reported m err msg s) :
    Reported m₀ err msg ⟨Heap.erase s.mem g, s.err⟩ := by
  unfold Reported at h ⊢
  cases err with
  | none => subst h; simp only [ha.erase]
  | some e =>
    obtain ⟨q, h1, h2, rfl⟩ := h
    have hq : q ∉ g := fun hq => ha.used q hq h1
    refine ⟨q, by rw [← ha.same q hq]; exact h1, h2, ?_⟩
    simp only [erase_set _ _ _ _ hq, ha.erase]

theorem setError_spec (A : Allocator) (msg : Str) (s : State) :
    setError A msg s = .abort ∨ ∃ s', setError A msg s = .ok s' ∧ Reported s.mem s.err msg s' := by
  obtain ⟨m, err⟩ := s
  unfold setError Reported
  cases err with
  | none => exact .inr ⟨_, rfl, rfl⟩
  | some e =>
    dsimp only
    rcases alloc_spec A (.text msg) m with h | ⟨q, h, hq, ha⟩
    · rw [h]; exact .inl rfl
    · rw [h]
      exact .inr ⟨_, rfl, q, ha.fresh q (by simp), hq, rfl⟩

theorem Texts.store {m : Mem} {ss ps f} (h : Texts m ss ps f) {q : Ptr} {s : Str} (hq : q ≠ 0) (hm : m q = Option.some (.text s)) :
    ∀ {i : Nat}, ss[i]? = Option.some Option.none → ∃ f', Texts m (ss.set i (Option.some s)) (ps.set i q) f' ∧ f'.Perm (q :: f) := by
  induction h with
  | nil => intro i hi; simp at hi
  | @null ss ps f h ih =>
    intro i hi
    cases i with
    | zero => exact ⟨q :: f, .some hq hm h, .refl _⟩
    | succ i =>
      obtain ⟨f', h1, h2⟩ := ih (by simpa using hi)
      exact ⟨f', .null h1, h2⟩
  | @some s' p ss ps f h0 h1 h ih =>
    intro i hi
    cases i with
    | zero => simp at hi
    | succ i =>
      obtain ⟨f', h2, h3⟩ := ih (by simpa using hi)
      exact ⟨p :: f', .some h0 h1 h2, (h3.cons p).trans (.swap _ _ _)⟩

theorem Holds.mem {m : Mem} {v : Chain} {p f} (h : Holds m v true p f) (hv : v ≠ .nil) : p ∈ f := by
  cases v with
  | nil => exact absurd rfl hv
  | cons k d ts w a b c e next =>
    obtain ⟨r, fs, fa, fb, fc, fe, fn, _, _, _, _, _, _, _, _, _, _, _, rfl⟩ := h
    exact List.mem_cons_self

theorem nth_zero (m : Mem) (p : Ptr) : nth m p 0 = p := rfl

/-- Where the structures of a list are after appending. -/
theorem appendLoop_nth {v w : Chain} : ∀ {n : Nat} {m m' : Mem} {p q : Ptr} {f g : List Ptr}, v ≠ .nil → v.size ≤ n →
    Holds m v true p f → Holds m w true q g → (f ++ g).Nodup → appendLoop n p q m = .ok m' →
    (∀ i, i < v.length → nth m' p i = nth m p i) ∧ nth m' p v.length = q := by
  induction v with
  | nil => exact fun h => absurd rfl h
  | cons k d ts cr a b c e next _ _ _ _ ihn =>
    intro n m m' p q f g _ hsize hv hw hf hrun
    rw [Chain.size] at hsize
    cases n with
    | zero => omega
    | succ n =>
      obtain ⟨r, g', fn, h1, h0, hpg, _, hn, rfl⟩ := hv.split
      rw [appendLoop, readRecord, h1] at hrun
      simp only [bind_ok] at hrun
      by_cases hnil : next = .nil
      · subst hnil
        obtain ⟨h6, rfl⟩ := hn
        rw [if_neg (by simp [h6]), writeRecord, h1] at hrun
        cases hrun
        refine ⟨fun i hi => ?_, ?_⟩
        · have : i = 0 := by simpa [Chain.length] using hi
          subst this; rfl
        · show nth _ p 1 = q
          rw [nth, set_eq]
          rfl
      · rw [if_pos (hn.ne hnil)] at hrun
        have hfn : (fn ++ g).Nodup := by
          rw [List.append_assoc] at hf; exact hf.of_append_right
        obtain ⟨m2, e1, _, e3⟩ := appendLoop_spec (n := n) hnil (by omega) hn hw hfn
        rw [hrun] at e1
        cases e1
        obtain ⟨i1, i2⟩ := ihn (n := n) hnil (by omega) hn hw hfn hrun
        have hp : p ∉ fn := fun h => (List.nodup_append.1 (by rw [List.append_assoc] at hf; exact hf)).2.2 p hpg p (by simp [h]) rfl
        have hm' : m' p = some (.record r) := by rw [e3 p hp, h1]
        refine ⟨fun i hi => ?_, ?_⟩
        · cases i with
          | zero => rfl
          | succ i =>
            rw [nth, nth, hm', h1]
            exact i1 i (by simpa [Chain.length] using hi)
        · rw [Chain.length, nth, hm']
          exact i2

theorem length_append (v w : Chain) : (v.append w).length = v.length + w.length := by
  induction v with
  | nil => simp [Chain.append, Chain.length]
  | cons k d ts cr a b c e next _ _ _ _ ih => rw [Chain.append, Chain.length, ih, Chain.length]; omega

theorem size_append (v w : Chain) : (v.append w).size = v.size + w.size := by
  induction v with
  | nil => simp [Chain.append, Chain.size]
  | cons k d ts cr a b c e next _ _ _ _ ih => rw [Chain.append, Chain.size, ih, Chain.size]; omega

theorem typed_append {v w : Chain} {ks} (hv : v.Typed ks) (hw : w.Typed ks) : (v.append w).Typed ks := by
  induction v with
  | nil => exact hw
  | cons k d ts cr a b c e next _ _ _ _ ih =>
    obtain ⟨h1, h2, h3, h4⟩ := hv
    exact ⟨h1, h2, ih h3, h4⟩

theorem append_nil_iff {v w : Chain} (hw : w ≠ .nil) : v.append w ≠ .nil := by
  cases v with
  | nil => exact hw
  | cons k d ts cr a b c e next => simp [Chain.append]

theorem MemberOk.nil (k : Kind) (i : Nat) : MemberOk k i .nil (Chain.nil).Typed := by
  unfold MemberOk
  split
  · rfl
  · exact ⟨trivial, fun _ => trivial⟩

/-! ## Lemmas: the structure being built -/

theorem Built.holds {k j m₀ m p x} (h : Built k j m₀ m p x) : ∃ r f, m p = some (.record r) ∧
    r.crashThread = x.crash.elim 0 (nth m r.a) ∧ Holds m (x.chain k r.crashThread) true p f ∧ Adds m₀ m f := by
  obtain ⟨_, r, fs, fa, fb, fc, fe, h0, h1, h2, h3, h4, ha, hb, hc, he, hn, hw, hadds⟩ := h
  refine ⟨r, p :: (fs ++ (fa ++ (fb ++ (fc ++ (fe ++ []))))), h1, hw, ⟨r, fs, fa, fb, fc, fe, [], h0, h1, h2, h3, rfl, h4, ha, hb,
    hc, he, ?_, rfl⟩, by simpa using hadds⟩
  rw [if_pos rfl]; exact ⟨hn, rfl⟩

/-- Writing the structure itself. -/
theorem Built.rebuild {k j m₀ m p x r fs fa fb fc fe} (hok : x.Ok k j) (h0 : p ≠ 0) (h2 : r.kind = k) (h3 : r.data = x.data)
    (h4 : Texts m x.texts r.texts fs) (ha : Holds m x.a true r.a fa) (hb : Holds m x.b true r.b fb) (hc : Holds m x.c true r.c fc)
    (he : Holds m x.e true r.e fe)
    (hn : r.next = 0) (hw : r.crashThread = x.crash.elim 0 (nth m r.a)) (hadds : Adds m₀ m (p :: (fs ++ (fa ++ (fb ++ (fc ++ fe)))))) :
    Built k j m₀ (m.set p (some (.record r))) p x := by
  have hp := (List.nodup_cons.1 hadds.nodup).1
  have keep : ∀ {l : List Ptr}, (∀ y ∈ l, y ∈ fs ++ (fa ++ (fb ++ (fc ++ fe)))) → ∀ y ∈ l, m.set p (some (.record r)) y = m y :=
    fun hl y hy => set_ne _ _ fun e : y = p => hp (e ▸ hl y hy)
  have hka := keep (l := fa) (by simp +contextual)
  refine ⟨hok, r, fs, fa, fb, fc, fe, h0, set_eq _ _ _, h2, h3, h4.congr (keep (by simp +contextual)), ha.congr hka,
    hb.congr (keep (by simp +contextual)), hc.congr (keep (by simp +contextual)), he.congr (keep (by simp +contextual)), hn, ?_, hadds.set (by simp) _⟩
  rw [hw]
  cases hcr : x.crash with
  | none => rfl
  | some i => exact (nth_congr ha hka (hok.crash i hcr).1).1.symm

theorem storeData_spec {k j m₀ m p x} (h : Built k j m₀ m p x) (l : List Int) (err : Option Ptr) :
    ∃ m', storeData p l ⟨m, err⟩ = .ok ⟨m', err⟩ ∧ Built k j m₀ m' p (x.add l) := by
  obtain ⟨hok, r, fs, fa, fb, fc, fe, h0, h1, h2, h3, h4, ha, hb, hc, he, hn, hw, hadds⟩ := h
  refine ⟨m.set p (some (.record { r with data := r.data ++ l })), ?_, ?_⟩
  · simp only [storeData, readRecord, h1, bind_ok, writeRecord]
  · exact Built.rebuild (x := x.add l) ⟨hok.length, hok.a, hok.b, hok.c, hok.e, hok.sizeA, hok.sizeB, hok.sizeC, hok.sizeE, hok.crash⟩ h0 h2
      (by simp [Part.add, h3]) h4 ha hb hc he hn hw hadds

theorem storeText_spec (A : Allocator) {k j m₀ m p x} (h : Built k j m₀ m p x) (t : Text) (str : Str) (err : Option Ptr)
    (ht : x.texts[(texts k).idxOf t]? = some none) :
    storeText A p k t str ⟨m, err⟩ = .abort ∨
    ∃ m', storeText A p k t str ⟨m, err⟩ = .ok ⟨m', err⟩ ∧ Built k j m₀ m' p (x.put k t str) := by
  obtain ⟨hok, r, fs, fa, fb, fc, fe, h0, h1, h2, h3, h4, ha, hb, hc, he, hn, hw, hadds⟩ := h
  unfold storeText
  dsimp only
  rcases alloc_spec A (.text str) m with e | ⟨q, e, hq, hA⟩
  · rw [e]; exact .inl rfl
  · rw [e]
    have hp1 : m.set q (some (.text str)) p = some (.record r) := by rw [hA.ext p (by rw [h1]; simp), h1]
    obtain ⟨fs', t1, t2⟩ := (h4.ext hA.ext).store hq (set_eq m q (some (.text str))) ht
    refine .inr ⟨(m.set q (some (.text str))).set p (some (.record { r with texts := r.texts.set ((texts k).idxOf t) q })), ?_, ?_⟩
    · simp only [bind_ok, readRecord, hp1, writeRecord]
    · refine Built.rebuild (x := x.put k t str) ⟨by simp [Part.put, hok.length], hok.a, hok.b, hok.c, hok.e, hok.sizeA,
        hok.sizeB, hok.sizeC, hok.sizeE, hok.crash⟩ h0 h2 h3 t1
        (ha.ext hA.ext) (hb.ext hA.ext) (hc.ext hA.ext) (he.ext hA.ext) hn ?_ ?_
      · show r.crashThread = _
        rw [hw]
        show _ = x.crash.elim 0 _
        cases hcr : x.crash with
        | none => rfl
        | some i => exact (nth_congr ha (fun y hy => hA.ext y (ha.used y hy)) (hok.crash i hcr).1).1.symm
      · refine (hadds.trans hA).perm ?_
        have : (p :: (fs ++ (fa ++ (fb ++ (fc ++ fe)))) ++ [q]).Perm (p :: ((q :: fs) ++ (fa ++ (fb ++ (fc ++ fe))))) := by
          rw [List.cons_append]
          refine List.Perm.cons p ?_
          exact List.perm_append_comm
        exact this.trans ((t2.symm.append_right _).cons p)

/-- Other memory that is added does not matter. -/
theorem Built.more {k j m₀ m p x m' g} (h : Built k j m₀ m p x) (hA : Adds m m' g) :
    x.Ok k j ∧ ∃ r fs fa fb fc fe, p ≠ 0 ∧ m' p = some (.record r) ∧ r.kind = k ∧ r.data = x.data ∧ Texts m' x.texts r.texts fs ∧
    Holds m' x.a true r.a fa ∧ Holds m' x.b true r.b fb ∧ Holds m' x.c true r.c fc ∧ Holds m' x.e true r.e fe ∧ r.next = 0 ∧
    r.crashThread = x.crash.elim 0 (nth m' r.a) ∧ Adds m₀ m' (p :: (fs ++ (fa ++ (fb ++ (fc ++ fe)))) ++ g) := by
  obtain ⟨hok, r, fs, fa, fb, fc, fe, h0, h1, h2, h3, h4, ha, hb, hc, he, hn, hw, hadds⟩ := h
  refine ⟨hok, r, fs, fa, fb, fc, fe, h0, by rw [hA.ext p (by rw [h1]; simp), h1], h2, h3, h4.ext hA.ext, ha.ext hA.ext, hb.ext hA.ext, hc.ext hA.ext,
    he.ext hA.ext, hn,
    ?_, hadds.trans hA⟩
  rw [hw]
  cases hcr : x.crash with
  | none => rfl
  | some i => exact (nth_congr ha (fun y hy => hA.ext y (ha.used y hy)) (hok.crash i hcr).1).1.symm

theorem append_spec {v w : Chain} {n : Nat} {m : Mem} {p q : Ptr} {f g : List Ptr} (hs : v.size ≤ n) (hv : Holds m v true p f)
    (hw : Holds m w true q g) (hf : (f ++ g).Nodup) :
    ∃ p' m', append n p q m = .ok (p', m') ∧ Holds m' (v.append w) true p' (f ++ g) ∧ (∀ x, x ∉ f → m' x = m x) ∧
      (∀ i, i < v.length → nth m' p' i = nth m p i) ∧ (w ≠ .nil → nth m' p' v.length = q) := by
  by_cases h : v = .nil
  · subst h
    obtain ⟨rfl, rfl⟩ := hv
    exact ⟨q, m, by rw [append, if_pos rfl], hw, fun _ _ => rfl, fun i hi => by simp [Chain.length] at hi, fun _ => rfl⟩
  · obtain ⟨m', e1, e2, e3⟩ := appendLoop_spec h hs hv hw hf
    obtain ⟨n1, n2⟩ := appendLoop_nth h hs hv hw hf e1
    exact ⟨p, m', by rw [append, if_neg (hv.ne h), e1]; rfl, e2, e3, n1, fun _ => n2⟩

/-- Appending one structure, whose address may be that of the crash thread. -/
theorem storeItem_spec {k j m₀ m p x} {l : List Kind} {s : Slot} (h : Built k j m₀ m p x) {n : Nat} (err : Option Ptr) {m' : Mem} {q : Ptr}
    {g : List Ptr} {c : Chain} (hA : Adds m m' g) (hcq : Holds m' c true q g) (hn : c ≠ .nil) (hsz : c.size + x.a.size < weight j)
    (hroom : weight j ≤ n) (hslot : (slots k)[0]? = some (s, l)) (hs : s.isList = true) (hty : c.Typed l) (b : Bool)
    (hb : b = true → k = .coreTrace) :
    let m₁ := if b then
        match m' p with
        | some (.record r) => m'.set p (some (.record { r with crashThread := q }))
        | _ => m'
      else m'
    ∃ m₂, storeItem n p q ⟨m₁, err⟩ = .ok ⟨m₂, err⟩ ∧
      Built k j m₀ m₂ p { x with a := x.a.append c, crash := if b then some x.a.length else x.crash } := by
  intro m₁
  obtain ⟨hok, r, fs, fa, fb, fc, fe, h0, h1, h2, h3, h4, ha, hbb, hcc, he, hnn, hw, hadds⟩ := h.more hA
  have hnd := hadds.nodup
  rw [List.cons_append, List.nodup_cons] at hnd
  obtain ⟨hp, hnd⟩ := hnd
  simp only [List.mem_append, not_or] at hp
  have hm1 : m₁ p = some (.record { r with crashThread := if b then q else r.crashThread }) := by
    show (if b then _ else m') p = _
    cases b with
    | false => simpa using h1
    | true => simp only [if_true, h1, set_eq]
  have keep1 : ∀ y, y ≠ p → m₁ y = m' y := by
    intro y hy
    show (if b then _ else m') y = _
    cases b with
    | false => rfl
    | true => simp only [if_true, h1, set_ne _ _ hy]
  have ha1 : Holds m₁ x.a true r.a fa := ha.congr fun y hy => keep1 y fun e => hp.1.2.1 (e ▸ hy)
  have hc1 : Holds m₁ c true q g := hcq.congr fun y hy => keep1 y fun e => hp.2 (e ▸ hy)
  have hfg : (fa ++ g).Nodup := by
    have h5 := List.nodup_append.1 hnd
    have h6 := List.nodup_append.1 (List.nodup_append.1 h5.1).2.1
    exact List.nodup_append.2 ⟨h6.1, h5.2.1, fun a ha' b hb' => h5.2.2 a (by simp [ha']) b hb'⟩
  obtain ⟨a', m₂, e1, e2, e3, e4, e5⟩ := append_spec (n := n) (by omega) ha1 hc1 hfg
  have hm2 : m₂ p = some (.record { r with crashThread := if b then q else r.crashThread }) := by rw [e3 p hp.1.2.1, hm1]
  have hd := List.nodup_append.1 (List.nodup_append.1 hnd).1
  have hdfs : ∀ y ∈ fs, y ∉ fa := fun y hy hy' => hd.2.2 y hy y (by simp [hy']) rfl
  have hdr : ∀ y ∈ fb ++ (fc ++ fe), y ∉ fa := fun y hy hy' => (List.nodup_append.1 hd.2.1).2.2 y hy' y hy rfl
  have keep2 : ∀ y, y ≠ p → y ∉ fa → m₂ y = m' y := fun y hy hy' => by rw [e3 y hy', keep1 y hy]
  refine ⟨m₂.set p (some (.record { r with crashThread := if b then q else r.crashThread, a := a' })), ?_, ?_⟩
  · simp only [storeItem, readRecord, hm1, bind_ok, e1, hm2, writeRecord]
  · refine Built.rebuild (fs := fs) (fa := fa ++ g) (fb := fb) (fc := fc) (fe := fe) ⟨hok.length, ?_, hok.b, hok.c, hok.e, ?_, hok.sizeB,
      hok.sizeC, hok.sizeE, ?_⟩ h0 h2 h3
      (h4.congr fun y hy => keep2 y (fun e => hp.1.1 (e ▸ hy)) (hdfs y hy)) e2
      (hbb.congr fun y hy => keep2 y (fun e => hp.1.2.2.1 (e ▸ hy)) (hdr y (by simp [hy])))
      (hcc.congr fun y hy => keep2 y (fun e => hp.1.2.2.2.1 (e ▸ hy)) (hdr y (by simp [hy])))
      (he.congr fun y hy => keep2 y (fun e => hp.1.2.2.2.2 (e ▸ hy)) (hdr y (by simp [hy]))) hnn ?_ ?_
    · have hka := hok.a
      unfold MemberOk at hka ⊢
      rw [hslot] at hka ⊢
      exact ⟨typed_append hka.1 hty, fun h => by rw [hs] at h; cases h⟩
    · show (x.a.append c).size < _
      rw [size_append]; omega
    · intro i hi
      show i < (x.a.append c).length ∧ _
      rw [length_append]
      have hl : 0 < c.length := by
        cases c with
        | nil => exact absurd rfl hn
        | cons _ _ _ _ _ _ _ _ _ => simp [Chain.length]
      cases b with
      | true => cases hi; exact ⟨by omega, hb rfl⟩
      | false => have := hok.crash i hi; exact ⟨by omega, this.2⟩
    · show (if b then q else r.crashThread) = (if b then some x.a.length else x.crash).elim 0 (nth m₂ a')
      cases b with
      | true => exact (e5 hn).symm
      | false =>
        show r.crashThread = x.crash.elim 0 (nth m₂ a')
        rw [hw]
        cases hcr : x.crash with
        | none => rfl
        | some i =>
          show nth m' r.a i = nth m₂ a' i
          rw [e4 i (hok.crash i hcr).1]
          exact ((nth_congr ha (fun y hy => keep1 y fun e => hp.1.2.1 (e ▸ hy)) (hok.crash i hcr).1).1).symm
    · have hperm : (p :: (fs ++ (fa ++ (fb ++ (fc ++ fe)))) ++ g).Perm (p :: (fs ++ (fa ++ g ++ (fb ++ (fc ++ fe))))) := by
        simp only [List.cons_append, List.append_assoc]
        refine ((List.Perm.append_left fa ?_).append_left fs).cons p
        have := List.perm_append_comm (l₁ := fb ++ (fc ++ fe)) (l₂ := g)
        simpa using this
      have hA2 := hadds.perm hperm
      refine ⟨hA2.nodup, hA2.fresh, fun y hy => ?_, fun y hy => ?_⟩
      · by_cases hyp : y = p
        · rw [hyp, hm2]; simp
        · by_cases hyf : y ∈ fa ++ g
          · exact e2.used y hyf
          · rw [keep2 y hyp (fun h => hyf (by simp [h]))]; exact hA2.used y hy
      · rw [keep2 y (fun e => hy (by simp [e])) (fun h => hy (by simp [h])), hA2.same y hy]

end Satyr.Heap
