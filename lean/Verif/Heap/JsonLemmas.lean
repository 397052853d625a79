import Verif.Heap.Json
/-!
# Reading structures from JSON: arrays, modules and the platform
-/
namespace Satyr.Heap
open Satyr.CStr
open Satyr.Json

/-! ## Lemmas: sizes -/

theorem weight_pos (v : Value) : 0 < weight v := by cases v <;> simp [weight]

theorem length_le_weights (l : List Value) : l.length ≤ weights l := by
  induction l with
  | nil => simp [weights]
  | cons v l ih => have := weight_pos v; simp only [weights, List.length_cons]; omega

theorem weight_mem {k : Str} {v : Value} : ∀ {l : List (Str × Value)}, (k, v) ∈ l → weight v ≤ memberWeights l
  | (_, w) :: l, h => by
    rw [memberWeights]
    rcases List.mem_cons.1 h with h | h
    · cases h; omega
    · have := weight_mem h; omega

theorem weight_get {j v : Value} {key : Str} (h : get j key = some v) : weight v < weight j := by
  unfold Json.get at h
  split at h
  · rename_i l
    rw [Option.map_eq_some_iff] at h
    obtain ⟨⟨k, v'⟩, h1, rfl⟩ := h
    have h2 := weight_mem (List.mem_reverse.1 (List.mem_of_find?_eq_some h1))
    rw [weight]
    show weight v' < _
    omega
  · cases h

theorem Part.Ok.typed {x : Part} {k j} (h : x.Ok k j) (w : Ptr) : (x.chain k w).Typed [k] :=
  ⟨by simp, h.length, trivial, h.a, h.b, h.c, h.e⟩

theorem Part.Ok.size {x : Part} {k j} (h : x.Ok k j) (w : Ptr) : (x.chain k w).size < room j := by
  have h1 := h.sizeA
  have h2 := h.sizeB
  have h3 := h.sizeC
  have h4 := h.sizeE
  simp only [Part.chain, Chain.size, room]
  omega

theorem MemberOk.absent {k : Kind} {i : Nat} {c : Chain} {P : List Kind → Prop} (h : MemberOk k i c P) (hi : (slots k)[i]? = none) :
    c = .nil := by
  unfold MemberOk at h
  rw [hi] at h
  exact h

/-- A structure with one member that is a list. -/
theorem Part.Ok.single {x : Part} {k j} (h : x.Ok k j) (hone : (slots k)[1]? = none) : x.b = .nil ∧ x.c = .nil ∧ x.e = .nil := by
  have hl : (slots k).length ≤ 1 := by simpa using hone
  exact ⟨h.b.absent hone, h.c.absent (by simp; omega), h.e.absent (by simp; omega)⟩

/-- Freeing what was built. -/
theorem Built.free {k j m₀ m p x err msg s} (h : Built k j m₀ m p x)
    (hr : k = .report → x.texts[1]? = some none ∧ x.texts[2]? = some none) (hs : Reported m err msg s) (b : Bool) {n : Nat}
    (hn : room j ≤ n) : ∃ m', Heap.free n p b s.mem = .ok m' ∧ Reported m₀ err msg ⟨m', s.err⟩ := by
  obtain ⟨r, f, _, _, h3, h4⟩ := h.holds
  refine ⟨erase s.mem f, ?_, hs.erase h4⟩
  have ht := h.1.typed r.crashThread
  refine free_spec _ n b p f s.mem [k] (by have := h.1.size r.crashThread; omega) ht
    ⟨hr, trivial⟩ ?_ h4.nodup
  have h5 := h3.ext hs.ext
  cases b with
  | true => exact h5
  | false => exact h5.alone rfl

/-! ## Lemmas: arrays -/

theorem refuse_spec (A : Allocator) {k j m₀ m p x} (h : Built k j m₀ m p x) (msg : Str) (err : Option Ptr) :
    Steps k j m₀ err p (fun y => y.texts = x.texts) (.error msg) (refuse A msg ⟨m, err⟩) := by
  unfold refuse
  rcases setError_spec A msg ⟨m, err⟩ with e | ⟨s, e, hs⟩
  · rw [e]; exact .inl rfl
  · rw [e]; exact .inr ⟨m, x, s, rfl, h, rfl, hs⟩

theorem storeItems_spec (A : Allocator) {k kind : Kind} {j : Value} {m₀ : Mem} {p : Ptr} {err : Option Ptr}
    {item : Value → State → Out (Ptr × State)} {itemP : Value → Except Str Part} {n : Nat} {marked : Bool} {s : Slot}
    (hslot : (slots k)[0]? = some (s, [kind])) (hs : s.isList = true) (hone : (slots kind)[1]? = none) (hkr : kind ≠ .report)
    (hkc : kind ≠ .coreTrace) (hmark : marked = true → k = .coreTrace) (hn : room j ≤ n) :
    ∀ (l : List Value) (x : Part) (m : Mem), (∀ v ∈ l, ∀ m, Reads kind v m err (itemP v) (item v ⟨m, err⟩)) →
      Built k j m₀ m p x → x.a.size + weights l < weight j →
      Steps k j m₀ err p (fun y => y.texts = x.texts) (itemsOf (fun v => (itemP v).map fun y => y.chain kind 0) marked l x)
        (storeItems A item n p marked l ⟨m, err⟩)
  | [], x, m, _, h, _ => .inr ⟨m, rfl, h⟩
  | v :: l, x, m, hitem, h, hsz => by
    have hroom : weight j ≤ n := by unfold room at hn; omega
    rw [itemsOf, storeItems]
    have hi := hitem v (by simp) m
    cases hv : itemP v with
    | error e =>
      rw [hv] at hi
      rcases hi with e1 | ⟨s', e1, e2⟩
      · rw [e1]; exact .inl rfl
      · rw [e1]
        simp only [bind_ok]
        exact .inr ⟨m, x, s', rfl, h, rfl, e2⟩
    | ok y =>
      rw [hv] at hi
      rcases hi with e1 | ⟨q, m', e1, e2⟩
      · rw [e1]; exact .inl rfl
      · rw [e1]
        simp only [bind_ok]
        obtain ⟨r, g, hr, hrc, hh, hA⟩ := e2.holds
        have hq : q ≠ 0 := hh.ne (by simp [Part.chain])
        have hcr : y.crash = none := by
          cases hc : y.crash with
          | none => rfl
          | some i => exact absurd (e2.1.crash i hc).2 hkc
        have hw0 : r.crashThread = 0 := by rw [hrc, hcr]; rfl
        rw [hw0] at hh
        obtain ⟨hyb, hyc, hye⟩ := e2.1.single hone
        have hcs : (y.chain kind 0).size ≤ weight v := by
          have := e2.1.sizeA
          simp only [Part.chain, Chain.size, hyb, hyc, hye]
          omega
        have hty := e2.1.typed 0
        rw [if_neg hq]
        rw [weights] at hsz
        have hstore := fun b hb => storeItem_spec (n := n) (l := [kind]) h err hA hh (by simp [Part.chain]) (by omega) hroom hslot hs hty b hb
        have next : ∀ b, (b = true → k = .coreTrace) → ∀ m₂,
            Built k j m₀ m₂ p { x with a := x.a.append (y.chain kind 0), crash := if b then some x.a.length else x.crash } →
            Steps k j m₀ err p (fun y => y.texts = x.texts) (itemsOf (fun v => (itemP v).map fun y => y.chain kind 0) marked l
              { x with a := x.a.append (y.chain kind 0), crash := if b then some x.a.length else x.crash })
              (storeItems A item n p marked l ⟨m₂, err⟩) := fun b hb m₂ hm₂ =>
          storeItems_spec A hslot hs hone hkr hkc hmark hn l _ m₂ (fun v hv => hitem v (by simp [hv])) hm₂
            (by show (x.a.append _).size + _ < _; rw [size_append]; omega)
        have plain : Steps k j m₀ err p (fun y => y.texts = x.texts) (itemsOf (fun v => (itemP v).map fun y => y.chain kind 0) marked l
              { x with a := x.a.append (y.chain kind 0), crash := if false = true then some x.a.length else x.crash })
              ((storeItem n p q ⟨m', err⟩).bind fun s => storeItems A item n p marked l s) := by
          obtain ⟨m₂, e3, e4⟩ := hstore false (by simp)
          rw [if_neg (by simp)] at e3
          rw [e3]
          exact next false (by simp) m₂ e4
        show Steps k j m₀ err p (fun y => y.texts = x.texts) (match markOf marked v with
          | none => _
          | some b => _) _
        unfold markOf storeMark
        cases hmk : marked with
        | false =>
          rw [if_pos rfl, if_pos rfl]
          simp only [bind_ok]
          rw [hmk] at plain
          exact plain
        | true =>
          rw [hmk] at plain next
          rw [if_neg (by simp), if_neg (by simp)]
          cases hg : get v c!"crash_thread" with
          | none =>
            dsimp only
            simp only [bind_ok]
            exact plain
          | some u =>
            have bad : Steps k j m₀ err p (fun y => y.texts = x.texts) (.error (typeError c!"crash_thread" c!"boolean"))
                (((setError A (typeError c!"crash_thread" c!"boolean") ⟨m', err⟩).bind fun s =>
                  (Heap.free n q false s.mem).bind fun m => .ok (false, ⟨m, s.err⟩)).bind fun x =>
                  if x.1 = true then (storeItem n p q x.2).bind fun s => storeItems A item n p true l s else .ok (false, x.2)) := by
              rcases setError_spec A (typeError c!"crash_thread" c!"boolean") ⟨m', err⟩ with e3 | ⟨s', e3, e4⟩
              · rw [e3]; exact .inl rfl
              · rw [e3]
                simp only [bind_ok]
                obtain ⟨m₃, e5, e6⟩ := e2.free (n := n) (fun e => absurd e hkr) e4 false (by
                  have := weight_pos v
                  unfold room at *; omega)
                rw [e5]
                exact .inr ⟨m, x, ⟨m₃, s'.err⟩, rfl, h, rfl, e6⟩
            cases u with
            | bool b =>
              cases b with
              | false =>
                dsimp only
                exact plain
              | true =>
                dsimp only
                rw [if_pos rfl]
                obtain ⟨_, r', fs, fa, fb, fc, fe, _, h1, _⟩ := h.more hA
                obtain ⟨m₂, e3, e4⟩ := hstore true (fun _ => hmark hmk)
                simp only [if_true, h1] at e3
                simp only [readRecord, h1, bind_ok, writeRecord, if_true]
                rw [e3]
                exact next true (fun _ => hmark hmk) m₂ (by simpa using e4)
            | _ => exact bad

/-! ## Lemmas: modules and platform -/

theorem storeModules_spec (A : Allocator) : ∀ (l : List Str) (m : Mem), storeModules A l m = .abort ∨
    ∃ q m' g, storeModules A l m = .ok (q, m') ∧ Adds m m' g ∧ Holds m' (moduleChain l) true q g
  | [], m => by
    rw [storeModules]
    rcases alloc_spec A (.record { kind := .module, texts := [0] }) m with e | ⟨q, e, hq, hA⟩
    · exact .inl e
    · refine .inr ⟨q, _, [q], e, hA, ?_⟩
      refine ⟨_, [], [], [], [], [], [], hq, set_eq _ _ _, rfl, rfl, rfl, .null .nil, ⟨rfl, rfl⟩, ⟨rfl, rfl⟩, ⟨rfl, rfl⟩, ⟨rfl, rfl⟩, ?_, rfl⟩
      rw [if_pos rfl]; exact ⟨rfl, rfl⟩
  | s :: l, m => by
    rw [storeModules]
    rcases storeModules_spec A l m with e | ⟨q, m', g, e, hA, hh⟩
    · rw [e]; exact .inl rfl
    · rw [e]
      simp only [bind_ok]
      rcases alloc_spec A (.text s) m' with e | ⟨q1, e, hq1, hA1⟩
      · rw [e]; exact .inl rfl
      · rw [e]
        simp only [bind_ok]
        rcases alloc_spec A (.record { kind := .module, texts := [q1], next := q }) (m'.set q1 (some (.text s))) with e | ⟨q2, e, hq2, hA2⟩
        · rw [e]; exact .inl rfl
        · have ht : ((m'.set q1 (some (.text s))).set q2 (some (.record { kind := .module, texts := [q1], next := q }))) q1 = some (.text s) := by
            rw [hA2.ext q1 (by rw [set_eq]; simp), set_eq]
          refine .inr ⟨q2, _, q2 :: ([q1] ++ ([] ++ ([] ++ ([] ++ ([] ++ g))))), e, ?_, ?_⟩
          · refine ((hA.trans hA1).trans hA2).perm ?_
            simp only [List.append_assoc, List.nil_append, List.singleton_append]
            exact (List.perm_append_comm (l₁ := g) (l₂ := [q1, q2])).trans (.swap _ _ _)
          · refine ⟨_, [q1], [], [], [], [], g, hq2, set_eq _ _ _, rfl, rfl, rfl, .some hq1 ht .nil, ⟨rfl, rfl⟩, ⟨rfl, rfl⟩, ⟨rfl, rfl⟩,
              ⟨rfl, rfl⟩, ?_, rfl⟩
            rw [if_pos rfl]
            exact (hh.ext hA1.ext).ext hA2.ext

theorem moduleChain_size : ∀ l : List Str, (moduleChain l).size = l.length + 1
  | [] => rfl
  | s :: l => by simp only [moduleChain, Chain.size, moduleChain_size l, List.length_cons]; omega

theorem moduleChain_typed : ∀ l : List Str, (moduleChain l).Typed [.module]
  | [] => ⟨by simp, rfl, trivial, MemberOk.nil _ _, MemberOk.nil _ _, MemberOk.nil _ _, MemberOk.nil _ _⟩
  | s :: l => ⟨by simp, rfl, moduleChain_typed l, MemberOk.nil _ _, MemberOk.nil _ _, MemberOk.nil _ _, MemberOk.nil _ _⟩

theorem readModules_length : ∀ (l : List Value) (al by' i : Nat) (r : List Str), Koops.readModules al by' i l = .ok r → r.length = l.length
  | [], al, by', i, r, h => by
    rw [Koops.readModules] at h
    split at h
    · cases h; rfl
    · cases h
  | v :: l, al, by', i, r, h => by
    cases v with
    | str s =>
      rw [Koops.readModules] at h
      split at h <;> split at h
      all_goals first | cases h | skip
      all_goals
        generalize hr : Koops.readModules _ _ (i + 1) l = o at h
        cases o with
        | ok r' =>
          cases h
          rw [List.length_cons, List.length_cons, readModules_length l _ _ _ r' hr]
        | abort => cases h
        | ub => cases h
    | _ => simp [Koops.readModules] at h

theorem modules_length {j : Value} {l : List Str} (h : Koops.modulesFromJson j = .ok (some (some l))) : l.length < weight j := by
  unfold Koops.modulesFromJson at h
  split at h
  · cases h
  · rename_i vs hg
    generalize hr : Koops.readModules _ _ 0 vs = o at h
    cases o with
    | ok r =>
      cases h
      have h1 := readModules_length _ _ _ _ _ hr
      have h2 := weight_get hg
      have h3 := length_le_weights vs
      rw [weight] at h2
      omega
    | abort => cases h
    | ub => cases h
  · cases h

/-- What `readPart` does that is to give `r`. -/
def Parts (m : Mem) (err : Option Ptr) (r : Except Str Nat) (o : Out (Ptr × Option Nat × State)) : Prop :=
  o = .abort ∨ match r with
  | .ok n => ∃ q m', o = .ok (q, some n, ⟨m', err⟩) ∧ q ≠ 0 ∧ Adds m m' [q]
  | .error msg => ∃ q m' s, o = .ok (q, none, s) ∧ Reported m' err msg s ∧ (q = 0 ∧ m' = m ∨ q ≠ 0 ∧ Adds m m' [q])

theorem readPart_spec (A : Allocator) (j : Value) (key missing unknown : Str) (of : Str → Nat) (m : Mem) (err : Option Ptr) :
    Parts m err (partOf j key missing unknown of) (readPart A j key missing unknown of ⟨m, err⟩) := by
  have bad : ∀ msg, Parts m err (.error msg) ((setError A msg ⟨m, err⟩).bind fun s => .ok (0, none, s)) := by
    intro msg
    rcases setError_spec A msg ⟨m, err⟩ with e | ⟨s, e, hs⟩
    · rw [e]; exact .inl rfl
    · rw [e]; exact .inr ⟨0, m, s, rfl, hs, .inl ⟨rfl, rfl⟩⟩
  unfold partOf readPart
  cases hg : Json.get j key with
  | none => exact bad missing
  | some v =>
    cases v with
    | str str =>
      dsimp only
      rcases alloc_spec A (.text str) m with e | ⟨q, e, hq, hA⟩
      · rw [e]; exact .inl rfl
      · rw [e]
        simp only [bind_ok]
        split
        · exact .inr ⟨q, _, rfl, hq, hA⟩
        · split
          · rcases setError_spec A (unknown ++ (str ++ c!"'")) ⟨m.set q (some (.text str)), err⟩ with e | ⟨s, e, hs⟩
            · rw [e]; exact .inl rfl
            · rw [e]; exact .inr ⟨q, _, s, rfl, hs, .inr ⟨hq, hA⟩⟩
          · exact .inr ⟨q, _, rfl, hq, hA⟩
    | _ => exact bad _

theorem readPlatform_spec (A : Allocator) (j : Value) (m : Mem) (err : Option Ptr) : readPlatform A j ⟨m, err⟩ = .abort ∨
    match platformOf j with
    | .ok n => readPlatform A j ⟨m, err⟩ = .ok (some n, ⟨m, err⟩)
    | .error msg => ∃ s, readPlatform A j ⟨m, err⟩ = .ok (none, s) ∧ Reported m err msg s := by
  unfold readPlatform platformOf
  have h1 := readPart_spec A j c!"engine" c!"No 'engine' member" c!"Unknown JavaScript engine '" Js.engineOf m err
  cases he : partOf j c!"engine" c!"No 'engine' member" c!"Unknown JavaScript engine '" Js.engineOf with
  | error msg =>
    rw [he] at h1
    rcases h1 with e | ⟨q, m', s, e, hs, hq⟩
    · rw [e]; exact .inl rfl
    · rw [e]
      simp only [bind_ok]
      rcases hq with ⟨rfl, rfl⟩ | ⟨hq, hA⟩
      · rw [freeBlock, if_pos rfl]
        exact .inr ⟨s, rfl, hs⟩
      · rw [freeBlock_spec hq (by rw [hs.ext q (hA.used q (by simp))]; exact hA.used q (by simp))]
        exact .inr ⟨_, rfl, hs.erase hA⟩
  | ok engine =>
    rw [he] at h1
    rcases h1 with e | ⟨q, m', e, hq, hA⟩
    · rw [e]; exact .inl rfl
    · rw [e]
      simp only [bind_ok]
      have h2 := readPart_spec A j c!"runtime" c!"No 'runtime' member" c!"Unknown JavaScript runtime '" Js.runtimeOf m' err
      cases hr : partOf j c!"runtime" c!"No 'runtime' member" c!"Unknown JavaScript runtime '" Js.runtimeOf with
      | error msg =>
        rw [hr] at h2
        rcases h2 with e | ⟨q', m2, s, e, hs, hq'⟩
        · rw [e]; exact .inl rfl
        · rw [e]
          simp only [bind_ok]
          rcases hq' with ⟨rfl, rfl⟩ | ⟨hq', hA'⟩
          · rw [freeBlock_spec hq (by rw [hs.ext q (hA.used q (by simp))]; exact hA.used q (by simp))]
            simp only [bind_ok]
            rw [freeBlock, if_pos rfl]
            exact .inr ⟨_, rfl, hs.erase hA⟩
          · have hA2 := hA.trans hA'
            have hu : ∀ y ∈ [q] ++ [q'], s.mem y ≠ none := fun y hy => by rw [hs.ext y (hA2.used y hy)]; exact hA2.used y hy
            have hne : q' ≠ q := fun e => by have := hA2.nodup; simp [e] at this
            rw [freeBlock_spec hq (hu q (by simp))]
            simp only [bind_ok]
            rw [freeBlock_spec hq' (by rw [erase_apart s.mem (g := [q']) (f := [q]) (by simpa using hne) q' (by simp)]; exact hu q' (by simp)),
              erase_erase]
            exact .inr ⟨_, rfl, hs.erase hA2⟩
      | ok runtime =>
        rw [hr] at h2
        rcases h2 with e | ⟨q', m2, e, hq', hA'⟩
        · rw [e]; exact .inl rfl
        · rw [e]
          simp only [bind_ok]
          have hA2 := hA.trans hA'
          have hne : q' ≠ q := fun e => by have := hA2.nodup; simp [e] at this
          rw [freeBlock_spec hq (hA2.used q (by simp))]
          simp only [bind_ok]
          rw [freeBlock_spec hq' (by rw [erase_apart m2 (g := [q']) (f := [q]) (by simpa using hne) q' (by simp)]; exact hA2.used q' (by simp)),
            erase_erase, hA2.erase]
          exact .inr rfl

end Satyr.Heap
