import Verif.Json.TextLemmas
import Verif.Json.Model
/-!
# Lemmas about writing and reading JSON
-/
namespace Satyr.Json
open Satyr.CStr

theorem escape_eq (s : Str) : escape s = s.flatMap escapeChar := by
  induction s with
  | nil => rfl
  | cons c s ih => rw [escape, ih, List.flatMap_cons]; rfl

theorem rend_escaped (x : Str) : Rend [.str x] (escaped x) := by
  rw [escaped, escape_eq]
  exact Rend.str x Rend.nil

/-- A character that is not escaped. -/
def plainChar (c : Char) : Bool :=
  c != '"' && c != '\\' && c != '\n' && c != '\r' && c != '\x0c' && c != '\x08' && c != '\t'

theorem escape_plain {x : Str} (h : x.all plainChar = true) : x.flatMap escapeChar = x := by
  induction x with
  | nil => rfl
  | cons c x ih =>
    rw [List.all_cons, Bool.and_eq_true] at h
    rw [List.flatMap_cons, ih h.2]
    have h1 := h.1
    simp only [plainChar, Bool.and_eq_true, bne_iff_ne, ne_eq] at h1
    obtain ⟨⟨⟨⟨⟨⟨a1, a2⟩, a3⟩, a4⟩, a5⟩, a6⟩, a7⟩ := h1
    simp [escapeChar, a1, a2, a3, a4, a5, a6, a7]

/-- The tokens of a constant text. -/
def lexLit : Nat → Str → Option (List Tok)
  | 0, _ => none
  | _ + 1, [] => some []
  | n + 1, '{' :: s => (lexLit n s).map (.lbrace :: ·)
  | n + 1, '}' :: s => (lexLit n s).map (.rbrace :: ·)
  | n + 1, '[' :: s => (lexLit n s).map (.lbracket :: ·)
  | n + 1, ']' :: s => (lexLit n s).map (.rbracket :: ·)
  | n + 1, ':' :: s => (lexLit n s).map (.colon :: ·)
  | n + 1, ',' :: s => (lexLit n s).map (.comma :: ·)
  | n + 1, 't' :: 'r' :: 'u' :: 'e' :: s => (lexLit n s).map (.true :: ·)
  | n + 1, 'f' :: 'a' :: 'l' :: 's' :: 'e' :: s => (lexLit n s).map (.false :: ·)
  | n + 1, '"' :: s =>
    let x := s.takeWhile (· != '"')
    match s.dropWhile (· != '"') with
    | '"' :: r => if x.all plainChar then (lexLit n r).map (.str x :: ·) else none
    | _ => none
  | n + 1, c :: s => if isWs c then lexLit n s else none

theorem rend_lit (n : Nat) {s : Str} {ts : List Tok} (h : lexLit n s = some ts) : Rend ts s := by
  induction n generalizing s ts with
  | zero => exact absurd h (by simp [lexLit])
  | succ n ih =>
    rw [lexLit.eq_def] at h
    split at h
    · exact absurd h (by simp)
    · obtain rfl := Option.some.inj h; exact Rend.nil
    · next he => obtain rfl := Nat.succ.inj he; obtain ⟨r, hr, rfl⟩ := Option.map_eq_some_iff.1 h; exact Rend.lbrace (ih hr)
    · next he => obtain rfl := Nat.succ.inj he; obtain ⟨r, hr, rfl⟩ := Option.map_eq_some_iff.1 h; exact Rend.rbrace (ih hr)
    · next he => obtain rfl := Nat.succ.inj he; obtain ⟨r, hr, rfl⟩ := Option.map_eq_some_iff.1 h; exact Rend.lbracket (ih hr)
    · next he => obtain rfl := Nat.succ.inj he; obtain ⟨r, hr, rfl⟩ := Option.map_eq_some_iff.1 h; exact Rend.rbracket (ih hr)
    · next he => obtain rfl := Nat.succ.inj he; obtain ⟨r, hr, rfl⟩ := Option.map_eq_some_iff.1 h; exact Rend.colon (ih hr)
    · next he => obtain rfl := Nat.succ.inj he; obtain ⟨r, hr, rfl⟩ := Option.map_eq_some_iff.1 h; exact Rend.comma (ih hr)
    · next he => obtain rfl := Nat.succ.inj he; obtain ⟨r, hr, rfl⟩ := Option.map_eq_some_iff.1 h; exact Rend.true (ih hr)
    · next he => obtain rfl := Nat.succ.inj he; obtain ⟨r, hr, rfl⟩ := Option.map_eq_some_iff.1 h; exact Rend.false (ih hr)
    · next s' he =>
      obtain rfl := Nat.succ.inj he
      dsimp only at h
      split at h
      · next r hd =>
        split at h
        · next hp =>
          obtain ⟨r', hr, rfl⟩ := Option.map_eq_some_iff.1 h
          have := Rend.str (s'.takeWhile (· != '"')) (ih hr)
          rw [escape_plain hp] at this
          have e := List.takeWhile_append_dropWhile (p := (· != '"')) (l := s')
          rw [hd] at e
          rw [e] at this
          exact this
        · exact absurd h (by simp)
      · exact absurd h (by simp)
    · next he =>
      obtain rfl := Nat.succ.inj he
      split at h
      · next hw => exact Rend.ws hw (ih h)
      · exact absurd h (by simp)

/-! ## Members -/

/-- The tokens of members, each preceded by a comma. -/
def memToks (l : List (Str × Value)) : List Tok := l.flatMap fun m => .comma :: .str m.1 :: .colon :: toks m.2

theorem memToks_append (l l' : List (Str × Value)) : memToks (l ++ l') = memToks l ++ memToks l' := List.flatMap_append

theorem moreMemberToks_eq (l : List (Str × Value)) : moreMemberToks l = memToks l ++ [.rbrace] := by
  induction l with
  | nil => rfl
  | cons m l ih =>
    obtain ⟨k, j⟩ := m
    rw [moreMemberToks, ih]
    simp [memToks]

/-- A text of members, each preceded by a comma, the first comma being the first character. -/
def Body (l : List (Str × Value)) (s : Str) : Prop := Rend (memToks l) s ∧ (l = [] ↔ s = []) ∧ (s ≠ [] → s.head? = some ',')

theorem Body.nil : Body [] [] := ⟨Rend.nil, by simp, by simp⟩

theorem Body.append {l l' : List (Str × Value)} {s s' : Str} (h : Body l s) (h' : Body l' s') :
    Body (l ++ l') (s ++ s') := by
  refine ⟨?_, ?_, ?_⟩
  · rw [memToks_append]; exact h.1.append h'.1
  · rw [List.append_eq_nil_iff, List.append_eq_nil_iff, h.2.1, h'.2.1]
  · intro hne
    cases s with
    | nil => exact h'.2.2 (by simpa using hne)
    | cons c s => exact h.2.2 (by simp)

/-- The member written for a value `j` of which `t` is the text. -/
theorem Body.one {name key : Str} {j : Value} {t : Str} (n : Nat) (hl : lexLit n name = some [.comma, .str key, .colon])
    (hh : name.head? = some ',') (hj : Rend (toks j) t) : Body [(key, j)] (name ++ t) := by
  have hne : name ++ t ≠ [] := by intro h; rw [List.append_eq_nil_iff] at h; rw [h.1] at hh; simp at hh
  refine ⟨?_, by simp [hne], fun _ => ?_⟩
  · have := (rend_lit n hl).append hj
    simpa [memToks] using this
  · cases name with
    | nil => simp at hh
    | cons c s => exact hh

theorem Rend.ws_end {ts : List Tok} {s t : Str} (h : Rend ts s) (ht : t.all isWs = Bool.true) : Rend ts (s ++ t) := by
  have : Rend [] t := by
    induction t with
    | nil => exact Rend.nil
    | cons c t ih =>
      rw [List.all_cons, Bool.and_eq_true] at ht
      exact Rend.ws ht.1 (ih ht.2)
  simpa using h.append this

/-- The members for an optional string. -/
def strVal (key : Str) (o : Option Str) : List (Str × Value) :=
  match o with
  | none => []
  | some s => [(key, .str s)]

theorem Body.strMember {name key : Str} (n : Nat) (hl : lexLit n name = some [.comma, .str key, .colon])
    (hh : name.head? = some ',') (o : Option Str) : Body (strVal key o) (strMember name o) := by
  cases o with
  | none => exact Body.nil
  | some s => exact Body.one n hl hh ((rend_escaped s).ws_end rfl)

theorem Body.numMember {name key : Str} (n : Nat) (hl : lexLit n name = some [.comma, .str key, .colon])
    (hh : name.head? = some ',') (k : Nat) : Body [(key, .num k)] (numMember name k) :=
  Body.one n hl hh (Rend.num k rfl Rend.nil)

theorem Body.ite {c : Prop} [Decidable c] {l l' : List (Str × Value)} {s s' : Str} (h : c → Body l s)
    (h' : ¬ c → Body l' s') : Body (if c then l else l') (if c then s else s') := by
  split
  · next hc => exact h hc
  · next hc => exact h' hc

theorem Rend.comma_inv {ts : List Tok} {s : Str} (h : Rend (.comma :: ts) (',' :: s)) : Rend ts s := by
  generalize hl : Tok.comma :: ts = l at h
  generalize hx : ',' :: s = x at h
  cases h with
  | nil => simp at hl
  | ws hc h => obtain ⟨rfl, rfl⟩ := List.cons.inj hx; simp [isWs] at hc
  | comma h => obtain ⟨-, rfl⟩ := List.cons.inj hl; obtain ⟨-, rfl⟩ := List.cons.inj hx; exact h
  | _ => simp at hl

/-- The text with the first comma replaced by a brace, and a closing brace, is a text of the object. -/
theorem Body.object {l : List (Str × Value)} {s : Str} (h : Body l s) (hne : l ≠ []) (sp : Str) (hsp : sp.all isWs = Bool.true) :
    Rend (toks (.obj l)) ('{' :: (s.drop 1 ++ (sp ++ ['}']))) := by
  obtain ⟨h1, h2, h3⟩ := h
  have hs : s ≠ [] := fun e => hne (h2.2 e)
  cases s with
  | nil => exact absurd rfl hs
  | cons c s =>
    have hc := h3 (by simp)
    rw [List.head?_cons, Option.some.injEq] at hc
    subst hc
    cases l with
    | nil => exact absurd rfl hne
    | cons m l =>
      obtain ⟨k, j⟩ := m
      have e1 : memToks ((k, j) :: l) = .comma :: (.str k :: .colon :: (toks j ++ memToks l)) := by simp [memToks]
      rw [e1] at h1
      have h4 := Rend.comma_inv h1
      rw [toks, memberToks, moreMemberToks_eq]
      have h5 : Rend [.rbrace] (sp ++ ['}']) := by
        have := (Rend.ws_end Rend.nil hsp).append (Rend.rbrace Rend.nil)
        simpa using this
      have := Rend.lbrace (h4.append h5)
      simpa using this

theorem Body.finish {l : List (Str × Value)} {s : Str} (h : Body l s) (hne : l ≠ []) :
    Rend (toks (.obj l)) (finishObject s) := by
  have := h.object hne [] rfl
  have hs : s ≠ [] := fun e => hne (h.2.1.2 e)
  rw [finishObject, if_neg hs]
  simpa using this

/-! ## Arrays -/

theorem moreItemToks_append (l : List Value) : moreItemToks l = (l.flatMap fun j => .comma :: toks j) ++ [.rbracket] := by
  induction l with
  | nil => rfl
  | cons j l ih => rw [moreItemToks, ih]; simp

theorem rend_items {α : Type} (v : α → Value) (f : α → Str) (l : List α) (hl : ∀ a ∈ l, Rend (toks (v a)) (f a)) :
    Rend (l.flatMap fun a => .comma :: toks (v a)) (itemsText c!"      , " (l.map f)) := by
  induction l with
  | nil => exact Rend.nil
  | cons a l ih =>
    have ha := (hl a (by simp)).indent 8
    have hc : Rend [.comma] c!"      , " := rend_lit 100 (by decide)
    cases l with
    | nil =>
      have := hc.append ha
      simpa [itemsText] using this
    | cons b l =>
      have ih := ih fun x hx => hl x (by simp [hx])
      have := hc.append (ha.append (Rend.ws (c := '\n') rfl ih))
      simpa [itemsText] using this

/-- A non-empty array is written correctly if its items are. -/
theorem rend_array {α : Type} (v : α → Value) (f : α → Str) (l : List α) (hne : l ≠ []) (hl : ∀ a ∈ l, Rend (toks (v a)) (f a)) :
    Rend (toks (.arr (l.map v))) (arrayText (l.map f)) := by
  have hclose : Rend [.rbracket] c!" ]\n" := rend_lit 100 (by decide)
  cases l with
  | nil => exact absurd rfl hne
  | cons a l =>
    have ha := (hl a (by simp)).indent 8
    have ho : Rend [.lbracket] c!"      [ " := rend_lit 100 (by decide)
    rw [List.map_cons, toks, itemToks, moreItemToks_append]
    cases l with
    | nil =>
      have := ho.append (ha.append hclose)
      simpa [itemsText, arrayText] using this
    | cons b l =>
      have ih := rend_items v f (b :: l) fun x hx => hl x (by simp [hx])
      have := ho.append (ha.append (Rend.ws (c := '\n') rfl (ih.append hclose)))
      simpa [itemsText, arrayText, List.flatMap_map] using this

/-! ## Reading members -/

theorem readAll_map {α : Type} (v : α → Value) (g : Value → Option α) (r : α → α) (l : List α)
    (h : ∀ a ∈ l, g (v a) = some (r a)) : readAll g (l.map v) = some (l.map r) := by
  induction l with
  | nil => rfl
  | cons a l ih =>
    rw [List.map_cons, readAll, h a (by simp), ih fun x hx => h x (by simp [hx])]
    rfl

theorem get_obj_append (l l' : List (Str × Value)) (key : Str) :
    get (.obj (l ++ l')) key = (get (.obj l') key).or (get (.obj l) key) := by
  simp only [get, List.reverse_append, List.find?_append]
  cases List.find? (fun m => m.1 == key) l'.reverse <;> rfl

theorem get_obj_nil (key : Str) : get (.obj []) key = none := rfl

theorem get_obj_one (k : Str) (j : Value) (key : Str) : get (.obj [(k, j)]) key = if k = key then some j else none := by
  simp only [get, List.reverse_cons, List.reverse_nil, List.nil_append, List.find?_cons, List.find?_nil]
  by_cases h : k = key
  · simp [h]
  · have : (k == key) = false := beq_eq_false_iff_ne.2 h
    simp [h, this]

theorem get_obj_cons (k : Str) (j : Value) (l : List (Str × Value)) (key : Str) :
    get (.obj ((k, j) :: l)) key = (get (.obj l) key).or (if k = key then some j else none) := by
  rw [← get_obj_one, ← get_obj_append]; rfl

theorem get_strVal (k : Str) (o : Option Str) (key : Str) :
    get (.obj (strVal k o)) key = if k = key then o.map Value.str else none := by
  cases o with
  | none => simp [strVal, get_obj_nil]
  | some s => rw [strVal, get_obj_one]; rfl

theorem get_ite {c : Prop} [Decidable c] (l l' : List (Str × Value)) (key : Str) :
    get (.obj (if c then l else l')) key = if c then get (.obj l) key else get (.obj l') key := by
  split <;> rfl

theorem toUnsigned64 {n : Nat} : toUnsigned 64 (clamp64 n) = min n (2 ^ 63 - 1) := by
  unfold toUnsigned clamp64
  have h : max (min (n : Int) (2 ^ 63 - 1)) (-2 ^ 63) = ((min n (2 ^ 63 - 1) : Nat) : Int) := by omega
  rw [h, Int.emod_eq_of_lt (by omega) (by omega), Int.toNat_natCast]

theorem toUnsigned32 {n : Nat} : toUnsigned 32 (clamp32 n) = min n (2 ^ 31 - 1) := by
  unfold toUnsigned clamp32
  have h : max (min (n : Int) (2 ^ 31 - 1)) (-2 ^ 31) = ((min n (2 ^ 31 - 1) : Nat) : Int) := by omega
  rw [h, Int.emod_eq_of_lt (by omega) (by omega), Int.toNat_natCast]

theorem toUnsigned16 {n : Nat} (h : n < 2 ^ 16) : toUnsigned 16 (clamp32 n) = n := by
  unfold toUnsigned clamp32
  have h : max (min (n : Int) (2 ^ 31 - 1)) (-2 ^ 31) = (n : Int) := by omega
  rw [h, Int.emod_eq_of_lt (by omega) (by omega)]
  simp

/-- Looks up a member in a list of members built from `strVal`, conditionals and appends. -/
macro "json_get" d:ident : tactic =>
  `(tactic| set_option linter.unusedSimpArgs false in
    simp [$d:ident, get_obj_append, get_obj_cons, get_obj_one, get_strVal, get_ite, get_obj_nil])

theorem readStr_of {j : Value} {key : Str} {o : Option Str} (h : get j key = o.map Value.str) :
    readStr j key none = some o := by
  rw [readStr, h]; cases o <;> rfl

theorem readU64_of {j : Value} {key : Str} {n : Nat} (d : Nat) (h : get j key = some (.num n)) :
    readU64 j key d = some (min n (2 ^ 63 - 1)) := by
  rw [readU64, h]; exact congrArg some toUnsigned64

theorem readU32_of {j : Value} {key : Str} {n : Nat} (d : Nat) (h : get j key = some (.num n)) :
    readU32 j key d = some (min n (2 ^ 31 - 1)) := by
  rw [readU32, h]; exact congrArg some toUnsigned32

theorem readU16_of {j : Value} {key : Str} {n : Nat} (d : Nat) (hn : n < 2 ^ 16) (h : get j key = some (.num n)) :
    readU16 j key d = some n := by
  rw [readU16, h]; exact congrArg some (toUnsigned16 hn)

theorem readBool_of {j : Value} {key : Str} {b : Bool} (d : Bool) (h : get j key = some (.bool b)) :
    readBool j key d = some b := by
  rw [readBool, h]

theorem readArray_of {α : Type} {j : Value} {key : Str} {l : List α} {v : α → Value} {g : Value → Option α} {r : α → α}
    (h : get j key = some (.arr (l.map v))) (hr : ∀ a ∈ l, g (v a) = some (r a)) : readArray j key g = some (l.map r) := by
  rw [readArray, h]
  exact readAll_map v g r l hr

end Satyr.Json
