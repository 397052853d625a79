import Verif.Gdb.FrameLoops
/-!
# C56 for gdb frames: a text that ends with a newline is not left; what is returned stands in the text
-/
namespace Satyr.Gdb
open Satyr.CStr Satyr.Normalize Satyr.Frames

theorem parseCharLimited_cases (s allowed : Str) :
    (∃ c t, s = c :: t ∧ c ∈ allowed ∧ parseCharLimited s allowed = .ok (some c, t)) ∨ parseCharLimited s allowed = .ok (none, s) := by
  unfold parseCharLimited
  cases s with
  | nil => exact .inr rfl
  | cons c t =>
    rw [peek_cons]
    by_cases h0 : c = '\x00'
    · exact .inr (if_pos h0)
    · rw [if_neg h0]
      by_cases h1 : strchrHas allowed c = false
      · exact .inr (if_pos h1)
      · rw [if_neg h1]
        refine .inl ⟨c, t, rfl, ?_, rfl⟩
        simpa [strchrHas, h0] using h1

theorem skipString_pos (s a : Str) (h : ¬ (skipString s a).1 = 0) : ∃ b, s = a ++ b ∧ (skipString s a).2 = b := by
  rcases skipString_cases s a with ⟨b, hb, hs⟩ | hs
  · exact ⟨b, hb, by rw [hs]⟩
  · rw [hs] at h; exact absurd rfl h

theorem skipCharSequence_yields (s : Str) {c : Char} (hc : c ≠ '\x00') :
    Yields (skipCharSequence s c) fun r => s = List.replicate r.1 c ++ r.2 := by
  obtain ⟨n, rest, h1, _, h2⟩ := C27_char_sequence s c hc
  exact ⟨_, h2, h1⟩

theorem not_endsNl_replicate {n : Nat} {c : Char} (hc : c ≠ '\n') : ¬ EndsNl (List.replicate n c) := by
  induction n with
  | zero => exact endsNl_nil
  | succ n ih => exact not_endsNl_cons hc ih

/-! ## Names -/

/-- A name, a type and the rest as parts of the text: the name is preceded by the type and one character of white space, if
there is a type. -/
def NameReads (s : Str) (r : (Str × Option Str) × Str) : Prop :=
  match r.1.2 with
  | none => s = r.1.1 ++ r.2
  | some ty => ∃ c ∈ srSpace, s = ty ++ c :: (r.1.1 ++ r.2)

theorem nameStart_post (s : Str) : Post (nameStart s) fun o => ∀ r, o = some r → Reads s r := by
  unfold nameStart
  rcases parseCharLimited_cases s firstChars with ⟨c, t, rfl, hc, h⟩ | h
  · rw [h, Out.bind_ok]
    refine .ok ?_
    rintro _ ⟨⟩
    split
    · exact ⟨rfl, endsNl_nil⟩
    · refine ⟨rfl, not_endsNl_cons ?_ endsNl_nil⟩
      rintro rfl
      exact absurd hc (by decide)
  · rw [h, Out.bind_ok]
    exact (braces_post s).mono fun o ho r hr => (ho r hr).1

theorem nameStart_fine {s : Str} (hs : EndsNl s) : Fine (nameStart s) := by
  unfold nameStart
  rcases parseCharLimited_cases s firstChars with ⟨c, t, rfl, hc, h⟩ | h
  · rw [h, Out.bind_ok]
    exact .ok _
  · rw [h, Out.bind_ok]
    exact braces_fine hs

theorem constSuffix_post (space : Char) (s : Str) (hsp : space ∈ srSpace) :
    Post (constSuffix space s) fun o => ∀ x c t, o = some (x, c, t) → space :: s = x ++ c :: t ∧ c ∈ srSpace := by
  unfold constSuffix
  refine Post.ite (fun _ => .ok ?_) fun h => ?_
  · rintro x c t ⟨⟩; exact ⟨rfl, hsp⟩
  · obtain ⟨b, hb, h2⟩ := skipString_pos _ _ h
    rw [h2]
    rcases parseCharLimited_cases b srSpace with ⟨c, t, rfl, hc, h⟩ | h
    · rw [h, Out.bind_ok]
      refine .ok ?_
      rintro x d u ⟨⟩
      exact ⟨by rw [hb]; rfl, hc⟩
    · rw [h, Out.bind_ok]
      refine .ok ?_
      rintro x d u ⟨⟩

theorem constSuffix_fine (space : Char) {s : Str} : Fine (constSuffix space s) := by
  unfold constSuffix
  refine Fine.ite (fun _ => .ok _) fun h => ?_
  rcases parseCharLimited_cases (skipString s c!"const").2 srSpace with ⟨c, t, h1, hc, h⟩ | h <;> rw [h, Out.bind_ok] <;> exact .ok _

/-- What the second part is made of. -/
def SecondReads (space : Char) (s : Str) (r : Option Str × Char × Str) : Prop :=
  match r.1 with
  | none => r.2 = (space, s)
  | some b => s = b ++ r.2.1 :: r.2.2 ∧ r.2.1 ∈ srSpace

theorem secondPart_post (space : Char) (s : Str) : Post (secondPart space s) fun o => ∀ r, o = some r → SecondReads space s r := by
  unfold secondPart
  refine (chunk_post false s).bind fun o ho => ?_
  cases o with
  | none =>
    refine .ok ?_
    rintro _ ⟨⟩; rfl
  | some r =>
    obtain ⟨x, t⟩ := r
    obtain ⟨h1, -⟩ := ho _ rfl
    refine (nameParts_post _ t).bind fun q hq => ?_
    rcases parseCharLimited_cases q.2 srSpace with ⟨c, u, hu, hc, h⟩ | h
    · rw [h, Out.bind_ok]
      refine .ok ?_
      rintro _ ⟨⟩
      refine ⟨?_, hc⟩
      have h2 := h1.1
      have h3 := hq.1
      dsimp only at h2 ⊢
      rw [List.append_assoc, ← hu, h3, h2]
    · rw [h, Out.bind_ok]
      refine .ok ?_
      rintro _ ⟨⟩

theorem secondPart_fine (space : Char) {s : Str} (hs : s = [] ∨ EndsNl s) : Fine (secondPart space s) := by
  unfold secondPart
  rcases hs with rfl | hs
  · exact ⟨_, rfl⟩
  obtain ⟨o, ho⟩ := chunk_fine false hs
  have hp := chunk_post false s o ho
  rw [ho, Out.bind_ok]
  cases o with
  | none => exact .ok _
  | some r =>
    obtain ⟨x, t⟩ := r
    obtain ⟨h1, -⟩ := hp _ rfl
    refine (partsF_fine (h1.rest hs)).bind fun q _ => ?_
    rcases parseCharLimited_cases q.2 srSpace with ⟨c, u, hu, hc, h⟩ | h <;> rw [h, Out.bind_ok] <;> exact .ok _

theorem EndsNl.suffix {a b : Str} (h : EndsNl (a ++ b)) : b = [] ∨ EndsNl b := by
  cases b with
  | nil => exact .inl rfl
  | cons c t => unfold EndsNl at h ⊢; rw [List.getLast?_append_of_ne_nil _ (by simp)] at h; exact .inr h

theorem lastConst_post (space : Char) (s : Str) :
    Post (lastConst space s) fun o => ∀ r, o = some r → space :: s = r.1 ++ r.2 := by
  unfold lastConst
  refine Post.ite (fun _ => .ok ?_) fun h => ?_
  · rintro _ ⟨⟩; rfl
  · obtain ⟨b, hb, h2⟩ := skipString_pos _ _ h
    rw [h2]
    refine (Post.any _).bind fun q _ => .ok ?_
    split
    · rintro _ ⟨⟩
      rw [hb]; rfl
    · rintro _ ⟨⟩

theorem lastConst_fine (space : Char) {s : Str} (hs : s = [] ∨ EndsNl s) : Fine (lastConst space s) := by
  unfold lastConst
  rcases hs with rfl | hs
  · exact ⟨_, rfl⟩
  refine Fine.ite (fun _ => .ok _) fun h => ?_
  obtain ⟨b, rfl, h2⟩ := skipString_pos _ _ h
  rw [h2]
  have hb : EndsNl b := hs.right (by decide)
  cases b with
  | nil => exact absurd hb endsNl_nil
  | cons c t =>
    unfold skipCharLimited
    split
    · exact ⟨_, rfl⟩
    · exact ⟨_, rfl⟩

theorem afterSpace_post (buf0 : Str) (space : Char) (s : Str) (hsp : space ∈ srSpace) :
    Post (afterSpace buf0 space s) fun o => ∀ r, o = some r → NameReads (buf0 ++ space :: s) r := by
  unfold afterSpace
  refine (constSuffix_post space s hsp).bind fun k hk => ?_
  cases k with
  | none => refine .ok ?_; rintro _ ⟨⟩
  | some k =>
    obtain ⟨x, c, t⟩ := k
    obtain ⟨h1, hc⟩ := hk x c t rfl
    refine (secondPart_post c t).bind fun o ho => ?_
    cases o with
    | none => refine .ok ?_; rintro _ ⟨⟩
    | some o =>
      obtain ⟨b, d, u⟩ := o
      have h2 := ho _ rfl
      refine (lastConst_post d u).bind fun l hl => ?_
      cases l with
      | none => refine .ok ?_; rintro _ ⟨⟩
      | some l =>
        have h3 := hl _ rfl
        obtain ⟨y, v⟩ := l
        refine .ok ?_
        rintro _ ⟨⟩
        dsimp only at h3
        rw [h1]
        cases b with
        | none =>
          cases h2
          show _ = _
          rw [h3]
          simp [nameAndType]
        | some b =>
          obtain ⟨h4, h5⟩ := h2
          dsimp only at h4
          refine ⟨c, hc, ?_⟩
          rw [h4, h3]
          simp [nameAndType]

theorem afterSpace_fine (buf0 : Str) (space : Char) {s : Str} (hsp : space ∈ srSpace) (hs : EndsNl (space :: s)) :
    Fine (afterSpace buf0 space s) := by
  unfold afterSpace
  obtain ⟨k, hk⟩ := constSuffix_fine space (s := s)
  have hk2 := constSuffix_post space s hsp k hk
  rw [hk, Out.bind_ok]
  cases k with
  | none => exact .ok _
  | some k =>
    obtain ⟨x, c, t⟩ := k
    obtain ⟨h1, hc⟩ := hk2 x c t rfl
    rw [h1] at hs
    have ht : t = [] ∨ EndsNl t := EndsNl.suffix (a := x ++ [c]) (by simpa using hs)
    obtain ⟨o, ho⟩ := secondPart_fine c ht
    have ho2 := secondPart_post c t o ho
    dsimp only
    rw [ho, Out.bind_ok]
    cases o with
    | none => exact .ok _
    | some o =>
      obtain ⟨b, d, u⟩ := o
      have h2 := ho2 _ rfl
      have hu : u = [] ∨ EndsNl u := by
        cases b with
        | none => cases h2; exact ht
        | some b =>
          obtain ⟨h4, h5⟩ := h2
          dsimp only at h4
          rcases ht with rfl | ht
          · exact absurd h4 (by simp)
          · rw [h4] at ht
            exact EndsNl.suffix (a := b ++ [d]) (by simpa using ht)
      refine (lastConst_fine d hu).bind fun l _ => ?_
      cases l with
      | none => exact .ok _
      | some l => exact .ok _

theorem parseString_cases (s a : Str) : (∃ b, s = a ++ b ∧ parseString s a = (some a, b)) ∨ parseString s a = (none, s) := by
  by_cases h : ∃ b, s = a ++ b
  · obtain ⟨b, rfl⟩ := h
    exact .inl ⟨b, rfl, ((C27_string _ a).1 b rfl).2⟩
  · exact .inr ((C27_string s a).2 h).2

theorem functionName_post (s : Str) : Post (functionName s) fun o => ∀ r, o = some r → NameReads s r := by
  unfold functionName
  rcases parseString_cases s c!"??" with ⟨b, hb, h⟩ | h
  · rw [h]
    refine .ok ?_
    rintro _ ⟨⟩
    exact hb
  · rw [h]
    refine (nameStart_post s).bind fun a ha => ?_
    cases a with
    | none => refine .ok ?_; rintro _ ⟨⟩
    | some a =>
      obtain ⟨x, t⟩ := a
      have h1 := ha _ rfl
      refine (nameParts_post _ t).bind fun q hq => ?_
      rcases parseCharLimited_cases q.2 srSpace with ⟨c, u, hu, hc, h⟩ | h
      · rw [h, Out.bind_ok]
        refine (afterSpace_post (x ++ q.1) c u hc).mono fun o ho r hr => ?_
        have h2 := ho r hr
        rwa [List.append_assoc, ← hu, hq.1, show x ++ t = s from h1.1] at h2
      · rw [h, Out.bind_ok]
        refine .ok ?_; rintro _ ⟨⟩

theorem functionName_fine {s : Str} (hs : EndsNl s) : Fine (functionName s) := by
  unfold functionName
  rcases parseString_cases s c!"??" with ⟨b, hb, h⟩ | h
  · rw [h]; exact .ok _
  · rw [h]
    obtain ⟨a, ha⟩ := nameStart_fine hs
    have ha2 := nameStart_post s a ha
    dsimp only
    rw [ha, Out.bind_ok]
    cases a with
    | none => exact .ok _
    | some a =>
      obtain ⟨x, t⟩ := a
      have h1 := ha2 _ rfl
      have ht := h1.rest hs
      obtain ⟨q, hq⟩ := partsF_fine ht
      have hq2 := partsF_post t q hq
      have hq' : nameParts (t.length + 1) t = .ok q := hq
      dsimp only
      rw [hq', Out.bind_ok]
      rcases parseCharLimited_cases q.2 srSpace with ⟨c, u, hu, hc, h⟩ | h
      · rw [h, Out.bind_ok]
        refine afterSpace_fine _ c hc ?_
        rw [← hu]
        exact hq2.rest ht
      · rw [h, Out.bind_ok]; exact .ok _

/-! ## Arguments -/

theorem argsLoop_fine : ∀ (n d : Nat) (st e : Bool) (s : Str), s ≠ [] → s.length < n → Fine (argsLoop n d st e s)
  | 0, _, _, _, s, _, h => by omega
  | n + 1, d, st, e, [], h, _ => absurd rfl h
  | n + 1, d, st, e, c :: s, _, h => by
    unfold argsLoop
    dsimp only
    cases argStep (peek (c :: s)) (if (!e && startsWith (c :: s) c!"(truncated)") = true then 0 else d)
        (if (!e && startsWith (c :: s) c!"(truncated)") = true then false else st) e with
    | none => exact .ok _
    | some r =>
      obtain ⟨d', st', e'⟩ := r
      show Fine (Out.ok s >>= _)
      rw [Out.bind_ok]
      refine Fine.ite (fun _ => .ok _) fun hp => ?_
      refine argsLoop_fine n d' st' e' s ?_ (by rw [List.length_cons] at h; omega)
      rintro rfl
      exact hp rfl

theorem argsLoop_post : ∀ (n d : Nat) (st e : Bool) (s : Str), Post (argsLoop n d st e s) fun r => ∃ a, s = a ++ r.2.2.2
  | 0, _, _, _, s => Post.ub
  | n + 1, d, st, e, [] => by
    unfold argsLoop
    dsimp only
    cases argStep (peek []) (if (!e && startsWith [] c!"(truncated)") = true then 0 else d)
        (if (!e && startsWith [] c!"(truncated)") = true then false else st) e with
    | none => exact .ok ⟨[], rfl⟩
    | some r => exact Post.ub
  | n + 1, d, st, e, c :: s => by
    unfold argsLoop
    dsimp only
    cases argStep (peek (c :: s)) (if (!e && startsWith (c :: s) c!"(truncated)") = true then 0 else d)
        (if (!e && startsWith (c :: s) c!"(truncated)") = true then false else st) e with
    | none => exact .ok ⟨[], rfl⟩
    | some r =>
      obtain ⟨d', st', e'⟩ := r
      show Post (Out.ok s >>= _) _
      rw [Out.bind_ok]
      refine Post.ite (fun _ => .ok ⟨[c], rfl⟩) fun hp => ?_
      refine (argsLoop_post n d' st' e' s).mono ?_
      rintro r ⟨a, ha⟩
      exact ⟨c :: a, by rw [List.cons_append, ← ha]⟩

theorem skipArgs_post (s : Str) : Post (skipArgs s) fun o => ∀ t, o = some t → ∃ a, s = '(' :: (a ++ ')' :: t) := by
  unfold skipArgs
  by_cases h : peek s = '('
  · obtain ⟨u, rfl⟩ := peek_split h (by decide)
    rw [skipChar_cons (by decide), Out.bind_ok]
    refine Post.ite (fun h => Bool.noConfusion h) fun _ => ?_
    refine (argsLoop_post _ _ _ _ u).bind fun r hr => ?_
    obtain ⟨a, ha⟩ := hr
    refine Post.ite (fun _ => .ok fun t h => by cases h) fun _ => ?_
    by_cases h2 : peek r.2.2.2 = ')'
    · obtain ⟨v, hv⟩ := peek_split h2 (by decide)
      rw [hv, skipChar_cons (by decide), Out.bind_ok]
      refine .ok ?_
      rintro _ ⟨⟩
      exact ⟨a, by rw [ha, hv]⟩
    · rw [skipChar_not (by decide) h2, Out.bind_ok]
      refine .ok ?_
      rintro _ ⟨⟩
  · rw [skipChar_not (by decide) h, Out.bind_ok]
    refine .ok ?_
    rintro _ ⟨⟩

theorem skipArgs_fine {s : Str} (hs : s = [] ∨ EndsNl s) : Fine (skipArgs s) := by
  unfold skipArgs
  by_cases h : peek s = '('
  · obtain ⟨u, rfl⟩ := peek_split h (by decide)
    rw [skipChar_cons (by decide), Out.bind_ok]
    refine Fine.ite (fun h => Bool.noConfusion h) fun _ => ?_
    have hu : EndsNl u := by
      rcases hs with hs | hs
      · cases hs
      · exact hs.tail (by decide)
    refine (argsLoop_fine _ _ _ _ u hu.ne (by dsimp only; omega)).bind fun r _ => ?_
    refine Fine.ite (fun _ => .ok _) fun _ => ?_
    exact (skipChar_fine _ (by decide)).bind fun _ _ => .ok _
  · rw [skipChar_not (by decide) h, Out.bind_ok]
    exact .ok _

/-! ## Calls -/

/-- A name, a type and the rest of a text in which a call stands. -/
def CallReads (s : Str) (r : (Str × Option Str) × Str) : Prop :=
  ∃ w args, w ≠ [] ∧ (∀ c ∈ w, c ∈ c!" \n") ∧ NameReads s (r.1, w ++ '(' :: (args ++ ')' :: r.2))

theorem functionCall_post (s : Str) : Post (functionCall s) fun o => ∀ r, o = some r → CallReads s r := by
  unfold functionCall
  refine (functionName_post s).bind fun n hn => ?_
  cases n with
  | none => refine .ok ?_; rintro _ ⟨⟩
  | some n =>
    obtain ⟨nt, t⟩ := n
    have h1 := hn _ rfl
    obtain ⟨pre, rest, h2, h3, h4, h5, -⟩ := C27_span t c!" \n"
    dsimp only
    rw [h5, Out.bind_ok]
    refine Post.ite (fun _ => .ok fun r h => by cases h) fun h0 => ?_
    refine (skipArgs_post rest).bind fun o ho => .ok ?_
    cases o with
    | none => rintro _ ⟨⟩
    | some u =>
      rintro _ ⟨⟩
      obtain ⟨a, ha⟩ := ho u rfl
      refine ⟨pre, a, fun h => h0 (by rw [h]; rfl), h3, ?_⟩
      rw [← ha, ← h2]
      exact h1

theorem NameReads.suffix {s : Str} {r : (Str × Option Str) × Str} (h : NameReads s r) : ∃ a, s = a ++ r.2 := by
  obtain ⟨⟨n, t⟩, u⟩ := r
  cases t with
  | none => exact ⟨n, h⟩
  | some ty =>
    obtain ⟨c, -, h⟩ := h
    exact ⟨ty ++ c :: n, by rw [h]; simp⟩

theorem functionCall_fine {s : Str} (hs : EndsNl s) : Fine (functionCall s) := by
  unfold functionCall
  obtain ⟨n, hn⟩ := functionName_fine hs
  have hn2 := functionName_post s n hn
  rw [hn, Out.bind_ok]
  cases n with
  | none => exact .ok _
  | some n =>
    obtain ⟨nt, t⟩ := n
    obtain ⟨a, ha⟩ := (hn2 _ rfl).suffix
    obtain ⟨pre, rest, h2, h3, h4, h5, -⟩ := C27_span t c!" \n"
    dsimp only at ha ⊢
    rw [h5, Out.bind_ok]
    refine Fine.ite (fun _ => .ok _) fun h0 => ?_
    refine (skipArgs_fine ?_).bind fun _ _ => .ok _
    refine EndsNl.suffix (a := a ++ pre) ?_
    rwa [List.append_assoc, ← h2, ← ha]

theorem wordSpace_yields (word s : Str) : Yields (wordSpace word s) fun o => ∀ t, o = some t →
    ∃ k, s = word ++ (List.replicate (k + 1) ' ' ++ t) := by
  unfold wordSpace
  refine Yields.ite (fun _ => .ok fun t h => by cases h) fun h0 => ?_
  obtain ⟨b, hb, h2⟩ := skipString_pos _ _ h0
  rw [h2]
  refine (skipCharSequence_yields b (by decide)).bind fun r hr => .ok ?_
  split
  · rintro _ ⟨⟩
  · rintro _ ⟨⟩
    rename_i h
    obtain ⟨n, u⟩ := r
    dsimp only at h hr ⊢
    obtain ⟨k, rfl⟩ : ∃ k, n = k + 1 := ⟨n - 1, by omega⟩
    exact ⟨k, by rw [hb, hr]⟩

theorem vtableFor_yields (s : Str) : Yields (vtableFor s) fun o => ∀ t, o = some t → ∃ a, s = a ++ t := by
  unfold vtableFor
  refine Yields.ite (fun _ => .ok ?_) fun h0 => ?_
  · rintro _ ⟨⟩; exact ⟨[], rfl⟩
  · refine (wordSpace_yields _ s).bind fun o ho => ?_
    cases o with
    | none => refine .ok ?_; rintro _ ⟨⟩
    | some u =>
      obtain ⟨k, hk⟩ := ho u rfl
      refine (wordSpace_yields _ u).mono fun o ho t ht => ?_
      obtain ⟨j, hj⟩ := ho t ht
      exact ⟨c!"vtable" ++ (List.replicate (k + 1) ' ' ++ (c!"for" ++ List.replicate (j + 1) ' ')), by rw [hk, hj]; simp⟩

theorem afterAddress_yields (s : Str) : Yields (afterAddress s) fun o => ∀ t, o = some t → ∃ a, s = a ++ t := by
  unfold afterAddress
  refine (skipCharSequence_yields s (by decide)).bind fun r hr => ?_
  refine Yields.ite (fun _ => .ok fun t h => by cases h) fun h0 => ?_
  refine (wordSpace_yields _ r.2).bind fun o ho => ?_
  cases o with
  | none => refine .ok ?_; rintro _ ⟨⟩
  | some u =>
    obtain ⟨k, hk⟩ := ho u rfl
    refine (vtableFor_yields u).mono fun o ho t ht => ?_
    obtain ⟨a, ha⟩ := ho t ht
    exact ⟨List.replicate r.1 ' ' ++ (c!"in" ++ (List.replicate (k + 1) ' ' ++ a)), by rw [hr, hk, ha]; simp⟩

theorem drop_span (p : Char → Bool) (s : Str) : s.drop (s.takeWhile p).length = s.dropWhile p := by
  have h := List.drop_left (l₁ := s.takeWhile p) (l₂ := s.dropWhile p)
  rwa [List.takeWhile_append_dropWhile] at h

theorem hex0x_cases (s : Str) :
    (∃ ds t, s = c!"0x" ++ (ds ++ t) ∧ ds ≠ [] ∧ (∀ c ∈ ds, IsHex c = true) ∧
      parseHex0xUint64 s = .ok (2 + ds.length, some (hexValue ds), t)) ∨ parseHex0xUint64 s = .ok (0, none, s) := by
  rw [C26_hex0x]
  split
  · rename_i t
    dsimp only
    split
    · rename_i h
      refine .inl ⟨t.takeWhile IsHex, t.drop (t.takeWhile IsHex).length, ?_, h.1, fun c hc => List.mem_takeWhile_imp hc, rfl⟩
      have : t = t.takeWhile IsHex ++ t.drop (t.takeWhile IsHex).length := by
        rw [drop_span, List.takeWhile_append_dropWhile]
      rw [← this]; rfl
    · exact .inr rfl
  · exact .inr rfl

/-- An address, if there is one, and a call. -/
def AddressReads (s : Str) (r : Nat × Option ((Str × Option Str) × Str)) : Prop :=
  (r.1 = 2 ^ 64 - 1 ∨ ∃ ds t, s = c!"0x" ++ (ds ++ t) ∧ (∀ c ∈ ds, IsHex c = true) ∧ r.1 = hexValue ds) ∧
  ∀ q, r.2 = some q → ∃ a t, s = a ++ t ∧ CallReads t q

theorem addressInFunction_post (s : Str) : Post (addressInFunction s) (AddressReads s) := by
  unfold addressInFunction
  rcases hex0x_cases s with ⟨ds, t, hs, hne, hd, h⟩ | h
  · rw [h, Out.bind_ok]
    refine Post.ite (fun h => absurd h (by dsimp only; omega)) fun _ => ?_
    dsimp only
    refine (afterAddress_yields t).post.bind fun b hb => ?_
    cases b with
    | none => exact .ok ⟨.inr ⟨ds, t, hs, hd, rfl⟩, fun q h => by cases h⟩
    | some u =>
      obtain ⟨a, ha⟩ := hb u rfl
      refine (functionCall_post u).bind fun o ho => .ok ⟨.inr ⟨ds, t, hs, hd, rfl⟩, fun q h => ?_⟩
      exact ⟨c!"0x" ++ (ds ++ a), u, by rw [hs, ha]; simp, ho q h⟩
  · rw [h, Out.bind_ok]
    refine Post.ite (fun _ => ?_) fun h => absurd rfl h
    exact (functionCall_post s).bind fun o ho => .ok ⟨.inl rfl, fun q h => ⟨[], s, rfl, ho q h⟩⟩

theorem addressInFunction_fine {s : Str} (hs : EndsNl s) : Fine (addressInFunction s) := by
  unfold addressInFunction
  rcases hex0x_cases s with ⟨ds, t, h1, hne, hd, h⟩ | h
  · rw [h, Out.bind_ok]
    refine Fine.ite (fun h => absurd h (by dsimp only; omega)) fun _ => ?_
    dsimp only
    obtain ⟨b, hb, hb2⟩ := afterAddress_yields t
    rw [hb, Out.bind_ok]
    cases b with
    | none => exact .ok _
    | some u =>
      obtain ⟨a, ha⟩ := hb2 u rfl
      have : u = [] ∨ EndsNl u := EndsNl.suffix (a := c!"0x" ++ (ds ++ a)) (by rw [h1, ha] at hs; simpa using hs)
      rcases this with rfl | hu
      · exact ⟨_, rfl⟩
      · exact (functionCall_fine hu).bind fun _ _ => .ok _
  · rw [h, Out.bind_ok]
    refine Fine.ite (fun _ => ?_) fun h => absurd rfl h
    exact (functionCall_fine hs).bind fun _ _ => .ok _

/-! ## Source locations -/

theorem uint32_cases (s : Str) :
    (∃ ds t, s = ds ++ t ∧ ds ≠ [] ∧ (∀ c ∈ ds, IsDec c = true) ∧ parseUint32 s = .ok (ds.length, some (decValue ds), t)) ∨
      parseUint32 s = .ok (0, none, s) := by
  rw [C25_uint32]
  dsimp only
  split
  · rename_i h
    refine .inl ⟨s.takeWhile IsDec, s.drop (s.takeWhile IsDec).length, ?_, h.1, fun c hc => List.mem_takeWhile_imp hc, rfl⟩
    rw [drop_span, List.takeWhile_append_dropWhile]
  · exact .inr rfl

theorem fileLine_yields (s : Str) : Yields (fileLine s) fun o => ∀ r, o = some r →
    r = (2 ^ 32 - 1, s) ∨ ∃ ds, s = ':' :: (ds ++ r.2) ∧ (∀ c ∈ ds, IsDec c = true) ∧ r.1 = decValue ds := by
  unfold fileLine
  by_cases h : peek s = ':'
  · obtain ⟨t, rfl⟩ := peek_split h (by decide)
    rw [skipChar_cons (by decide), Out.bind_ok]
    refine Yields.ite (fun h => Bool.noConfusion h) fun _ => ?_
    dsimp only
    rcases uint32_cases t with ⟨ds, u, hs, hne, hd, h⟩ | h
    · rw [h, Out.bind_ok]
      refine .ok ?_
      rw [if_neg (by dsimp only; intro h; exact hne (List.length_eq_zero_iff.1 h))]
      rintro _ ⟨⟩
      exact .inr ⟨ds, by rw [hs], hd, rfl⟩
    · rw [h, Out.bind_ok]
      refine .ok ?_
      rintro _ ⟨⟩
  · rw [skipChar_not (by decide) h, Out.bind_ok]
    refine .ok ?_
    rintro _ ⟨⟩
    exact .inl rfl

theorem fileKeyword_yields (s : Str) : Yields (fileKeyword s) fun o => ∀ t, o = some t → ∃ a, s = a ++ t := by
  unfold fileKeyword
  refine Yields.ite (fun _ => ?_) fun _ => ?_
  all_goals
    refine (wordSpace_yields _ s).mono fun o ho t ht => ?_
    obtain ⟨k, hk⟩ := ho t ht
    exact ⟨_ ++ List.replicate (k + 1) ' ', by rw [hk, List.append_assoc]⟩

theorem sourceName_some {name f : Str} (h : sourceName name = some f) : f = name := by
  unfold sourceName at h
  split at h
  · cases h; rfl
  · split at h
    · cases h
    · cases h; rfl

/-- A file and a line as parts of a text. -/
def LocationReads (s : Str) (r : Option Str × Nat × Str) : Prop :=
  ∃ a name b, s = a ++ (name ++ (b ++ r.2.2)) ∧ (r.1 = none ∨ r.1 = some name) ∧
    ((r.2.1 = 2 ^ 32 - 1 ∧ b = []) ∨ ∃ ds, b = ':' :: ds ∧ (∀ c ∈ ds, IsDec c = true) ∧ r.2.1 = decValue ds)

theorem fileLocation_yields (s : Str) : Yields (fileLocation s) fun o => ∀ r, o = some r → LocationReads s r := by
  unfold fileLocation
  obtain ⟨pre, rest, h2, h3, h4, h5, -⟩ := C27_span s c!" \n"
  rw [h5, Out.bind_ok]
  refine Yields.ite (fun _ => .ok fun r h => by cases h) fun h0 => ?_
  refine (fileKeyword_yields rest).bind fun k hk => ?_
  cases k with
  | none => refine .ok ?_; rintro _ ⟨⟩
  | some u =>
    obtain ⟨a, ha⟩ := hk u rfl
    obtain ⟨name, v, e2, e3, e4, -, e5⟩ := C27_span u fileChars
    dsimp only
    rw [e5, Out.bind_ok]
    dsimp only
    by_cases hn : name = []
    · rw [if_pos hn]; refine .ok ?_; rintro _ ⟨⟩
    · rw [if_neg hn]
      dsimp only
      refine (fileLine_yields v).bind fun l hl => ?_
      cases l with
      | none => refine .ok ?_; rintro _ ⟨⟩
      | some l =>
        obtain ⟨line, t⟩ := l
        refine .ok ?_
        rintro _ ⟨⟩
        have hsrc : sourceName name = none ∨ sourceName name = some name := by
          cases h : sourceName name with
          | none => exact .inl rfl
          | some f => rw [sourceName_some h]; exact .inr rfl
        rcases hl _ rfl with h | ⟨ds, hd1, hd2, hd3⟩
        · cases h
          exact ⟨pre ++ a, name, [], by rw [h2, ha, e2]; simp, hsrc, .inl ⟨rfl, rfl⟩⟩
        · exact ⟨pre ++ a, name, ':' :: ds, by rw [h2, ha, e2, hd1]; simp, hsrc, .inr ⟨ds, rfl, hd2, hd3⟩⟩

/-! ## Frames -/

theorem frameStart_yields (s : Str) : Yields (frameStart s) fun o => ∀ r, o = some r →
    ∃ ds k, s = '#' :: (ds ++ (List.replicate (k + 1) ' ' ++ r.2)) ∧ ds ≠ [] ∧ (∀ c ∈ ds, IsDec c = true) ∧ r.1 = decValue ds := by
  unfold frameStart
  by_cases h : peek s = '#'
  · obtain ⟨t, rfl⟩ := peek_split h (by decide)
    rw [skipChar_cons (by decide), Out.bind_ok]
    refine Yields.ite (fun h => Bool.noConfusion h) fun _ => ?_
    dsimp only
    rcases uint32_cases t with ⟨ds, u, hs, hne, hd, h⟩ | h
    · rw [h, Out.bind_ok]
      refine Yields.ite (fun _ => .ok fun r h => by cases h) fun _ => ?_
      refine (skipCharSequence_yields u (by decide)).bind fun w hw => .ok ?_
      split
      · rintro _ ⟨⟩
      · rintro _ ⟨⟩
        rename_i h0
        obtain ⟨n, v⟩ := w
        dsimp only at h0 hw ⊢
        obtain ⟨k, rfl⟩ : ∃ k, n = k + 1 := ⟨n - 1, by omega⟩
        exact ⟨ds, k, by rw [hs, hw], hne, hd, rfl⟩
    · rw [h, Out.bind_ok]
      refine Yields.ite (fun _ => .ok fun r h => by cases h) fun h => absurd rfl h
  · rw [skipChar_not (by decide) h, Out.bind_ok]
    refine .ok ?_
    rintro _ ⟨⟩

theorem headerWithoutAddress_fine (n a : Nat) {s : Str} (hs : EndsNl s) : Fine (headerWithoutAddress n a s) := by
  unfold headerWithoutAddress
  refine (functionCall_fine hs).bind fun c _ => ?_
  cases c with
  | none => exact .ok _
  | some c =>
    refine (fileLocation_yields c.2).fine.bind fun l _ => ?_
    cases l with
    | none => exact .ok _
    | some l => exact .ok _

theorem parseHeader_fine {s : Str} (hs : EndsNl s) : Fine (parseHeader s) := by
  unfold parseHeader
  obtain ⟨n, hn, hn2⟩ := frameStart_yields s
  rw [hn, Out.bind_ok]
  cases n with
  | none => exact .ok _
  | some n =>
    obtain ⟨number, t⟩ := n
    obtain ⟨ds, k, h1, -⟩ := hn2 _ rfl
    dsimp only at h1 ⊢
    have ht : t = [] ∨ EndsNl t := EndsNl.suffix (a := '#' :: (ds ++ List.replicate (k + 1) ' ')) (by rw [h1] at hs; simpa using hs)
    rcases ht with rfl | ht
    · exact ⟨_, rfl⟩
    · refine (addressInFunction_fine ht).bind fun a ha => ?_
      cases ha2 : a.2 with
      | none => exact headerWithoutAddress_fine _ _ ht
      | some q =>
        refine (fileLocation_yields q.2).fine.bind fun l _ => ?_
        cases l with
        | none => exact .ok _
        | some l => exact .ok _

/-- What is known about a frame and the text of its header: number, address, name, type, file and line are written in the
text, at the places where gdb prints them. -/
inductive HeaderReads (s : Str) (f : GdbFrame) (rest : Str) : Prop
  /-- The line of a signal handler. -/
  | signal (ds : Str) (k : Nat) (hs : s = '#' :: (ds ++ (List.replicate (k + 1) ' ' ++ (c!"<signal handler called>" ++ rest))))
      (hd : ds ≠ [] ∧ ∀ c ∈ ds, IsDec c = true) (hf : f = { newFrame with number := decValue ds, signalHandlerCalled := true })
  /-- A call. -/
  | call (ds : Str) (k : Nat) (before body loc : Str) (nt : Str × Option Str)
      (hs : s = '#' :: (ds ++ (List.replicate (k + 1) ' ' ++ (before ++ body))))
      (hd : ds ≠ [] ∧ ∀ c ∈ ds, IsDec c = true) (hnum : f.number = decValue ds)
      (haddr : f.address = 2 ^ 64 - 1 ∨ ∃ hs t, before ++ body = c!"0x" ++ (hs ++ t) ∧ (∀ c ∈ hs, IsHex c = true) ∧ f.address = hexValue hs)
      (hcall : CallReads body (nt, loc)) (hname : f.functionName = some nt.1) (htype : f.functionType = nt.2)
      (hloc : (f.sourceFile = none ∧ f.sourceLine = 2 ^ 32 - 1 ∧ loc = rest) ∨ LocationReads loc (f.sourceFile, f.sourceLine, rest))
      (hsig : f.signalHandlerCalled = false) (hlib : f.libraryName = none)

/-- C71: whatever text is given, each member of a frame that is returned stands in the text where gdb prints it. -/
theorem C71_sound (s rest : Str) (f : GdbFrame) (h : parseHeader s = .ok (some (f, rest))) : HeaderReads s f rest := by
  suffices H : Post (parseHeader s) fun o => ∀ r, o = some r → HeaderReads s r.1 r.2 from H _ h _ rfl
  unfold parseHeader
  refine (frameStart_yields s).post.bind fun n hn => ?_
  cases n with
  | none => refine .ok ?_; rintro _ ⟨⟩
  | some n =>
    obtain ⟨number, t⟩ := n
    obtain ⟨ds, k, h1, h2, h3, h4⟩ := hn _ rfl
    dsimp only at h1 h4 ⊢
    refine (addressInFunction_post t).bind fun a ha => ?_
    obtain ⟨addr, q⟩ := a
    obtain ⟨ha1, ha2⟩ := ha
    dsimp only at ha1 ha2 ⊢
    cases q with
    | some q =>
      obtain ⟨nt, u⟩ := q
      obtain ⟨b, body, e1, e2⟩ := ha2 _ rfl
      refine (fileLocation_yields u).post.bind fun l hl => ?_
      rw [e1] at ha1 h1
      cases l with
      | none =>
        refine .ok ?_
        rintro _ ⟨⟩
        exact .call ds k b body u nt h1 ⟨h2, h3⟩ h4 ha1 e2 rfl rfl (.inl ⟨rfl, rfl, rfl⟩) rfl rfl
      | some l =>
        obtain ⟨file, line, v⟩ := l
        refine .ok ?_
        rintro _ ⟨⟩
        exact .call ds k b body u nt h1 ⟨h2, h3⟩ h4 ha1 e2 rfl rfl (.inr (hl _ rfl)) rfl rfl
    | none =>
      unfold headerWithoutAddress
      refine (functionCall_post t).bind fun c hc => ?_
      cases c with
      | some c =>
        obtain ⟨nt, u⟩ := c
        refine (fileLocation_yields u).post.bind fun l hl => ?_
        cases l with
        | none => refine .ok ?_; rintro _ ⟨⟩
        | some l =>
          obtain ⟨file, line, v⟩ := l
          refine .ok ?_
          rintro _ ⟨⟩
          exact .call ds k [] t u nt h1 ⟨h2, h3⟩ h4 ha1 (hc _ rfl) rfl rfl (.inr (hl _ rfl)) rfl rfl
      | none =>
        refine .ok ?_
        dsimp only
        split
        · rename_i h0
          obtain ⟨b, hb, hb2⟩ := skipString_pos t c!"<signal handler called>" (by omega)
          rintro _ ⟨⟩
          refine .signal ds k (by rw [h1, hb2, ← hb]) ⟨h2, h3⟩ ?_
          rcases ha1 with rfl | ⟨x, y, hx, -⟩
          · rw [h4]; rfl
          · rw [hb] at hx
            exact absurd (show '<' = '0' from congrArg peek hx) (by decide)
        · rintro _ ⟨⟩

/-- A frame of `parseFrame` is one of `parseHeader`. -/
theorem C71_frame_sound (s rest : Str) (f : GdbFrame) (h : parseFrame s = .ok (some (f, rest))) : ∃ u, HeaderReads s f u := by
  suffices H : Post (parseFrame s) fun o => ∀ r, o = some r → ∃ u, HeaderReads s r.1 u from H _ h _ rfl
  unfold parseFrame
  refine Post.bind (P := fun o => ∀ f u, o = some (f, u) → HeaderReads s f u) ?_ fun o ho => ?_
  · rintro o ho f u rfl
    exact C71_sound s u f ho
  · cases o with
    | none => refine .ok ?_; rintro _ ⟨⟩
    | some r =>
      dsimp only
      refine Post.ite (fun _ => .ok ?_) fun _ => ?_
      · rintro _ ⟨⟩; exact ⟨r.2, ho _ _ rfl⟩
      · refine (Post.any _).bind fun _ _ => .ok ?_
        rintro _ ⟨⟩; exact ⟨r.2, ho _ _ rfl⟩

/-- C56 for gdb frames, except for texts that do not end with a newline: the text is not left and the loops end. -/
theorem C56_gdb_frame_partial (s : Str) (hs : EndsNl s) : Fine (parseFrame s) := by
  unfold parseFrame
  refine (parseHeader_fine hs).bind fun h _ => ?_
  cases h with
  | none => exact .ok _
  | some h =>
    dsimp only
    refine Fine.ite (fun _ => .ok _) fun hp => ?_
    refine (advance_fine ?_).bind fun _ _ => .ok _
    intro h0
    exact hp (by rw [h0]; rfl)

example : EndsNl c!"#0  0xdead in std::operator<< <char> (a=1) at a.cpp:3\n" := by decide

/-- C56 is false for gdb frames: a text that ends in the middle of a frame, with the parenthesis before the arguments, is
left. -/
theorem C56_not_gdb_arguments : ∃ s : Str, NoNul s ∧ parseFrame s = .ub := ⟨c!"#0  f (", by decide, by decide +kernel⟩

/-- C56 is false for gdb frames: a text that ends with an operator is left. -/
theorem C56_not_gdb_operator : ∃ s : Str, NoNul s ∧ parseFrame s = .ub := ⟨c!"#0  0x1 in operator+", by decide, by decide +kernel⟩

/-- C56 is false for gdb frames: a text that ends with `const` after a type and a name is left. -/
theorem C56_not_gdb_const : ∃ s : Str, NoNul s ∧ parseFrame s = .ub := ⟨c!"#0  int f const", by decide, by decide +kernel⟩

end Satyr.Gdb
