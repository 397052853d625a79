import Verif.Text.Js
/-!
# C51: exactly the lines of this form are read as JavaScript frames
-/
namespace Satyr.Text.Js
open Satyr.CStr Satyr.Frames

/-- A decimal number that fits 32 bits; leading zeros are allowed. -/
structure Num (d : Str) (v : Nat) : Prop where
  nonempty : d ≠ []
  digits : ∀ c ∈ d, IsDec c = true
  value : decValue d = v
  small : v < 2 ^ 32

/-- `file:line:column`. -/
def PosLine (text file : Str) (line column : Nat) : Prop :=
  ∃ d1 d2, text = file ++ ':' :: d1 ++ ':' :: d2 ∧ file ≠ [] ∧ Num d1 line ∧ Num d2 column

def Blanks (s : Str) : Prop := ∀ c ∈ s, c = ' '

/-- The lines of JavaScript stack traces with their frames: `at file:line:column` and `at name (file:line:column)`, with blanks
around; between the blank after the name and the parenthesis there may be other text, as in `at f [as g] (file:line:column)`. -/
inductive FrameLine : Str → JsFrame → Prop
  | plain (ind gap pos blanks file : Str) (line column : Nat) : Blanks ind → Blanks gap → Blanks blanks →
      PosLine pos file line column → file.head? ≠ some ' ' →
      FrameLine (ind ++ c!"at " ++ gap ++ pos ++ blanks) ⟨some (anonymizePath file), line, column, none⟩
  | named (ind gap name more pos blanks file : Str) (line column : Nat) : Blanks ind → Blanks gap → Blanks blanks →
      PosLine pos file line column → name ≠ [] → ' ' ∉ name → '(' ∉ more →
      FrameLine (ind ++ c!"at " ++ gap ++ name ++ c!" " ++ more ++ c!"(" ++ pos ++ c!")" ++ blanks)
        ⟨some (anonymizePath file), line, column, some name⟩

theorem Num.parse {d suf : Str} {v : Nat} (h : Num d v) (hs : IsDec (peek suf) = false) : parseUint32 (d ++ suf) = .ok (d.length, some v, suf) := by
  obtain ⟨h1, h2, rfl, h4⟩ := h
  exact parseUint32_digits h2 h1 h4 hs

theorem Num.of_parse {d suf : Str} (hd : ∀ c ∈ d, IsDec c = true) (hs : IsDec (peek suf) = false) {n : Nat} {v : Nat} {s : Str}
    (h : parseUint32 (d ++ suf) = .ok (n, some v, s)) : Num d v := by
  rw [C25_uint32] at h
  simp only [(takeWhile_append_stop hd hs).1] at h
  split at h
  · next hc =>
    have e := congrArg (fun x => x.2.1) (Out.ok.inj h)
    have e' : decValue d = v := Option.some.inj e
    exact ⟨hc.1, hd, e', e' ▸ hc.2⟩
  · have e := congrArg (fun x => x.2.1) (Out.ok.inj h)
    cases e

theorem backColon_sound (pre mid suf : Str) (hm : mid ≠ []) (t : Nat)
    (h : backColon (pre ++ mid ++ suf) pre.length ((pre ++ mid).length - 1) = .ok (some t)) :
    t = pre.length ∨ ∃ x d, mid = x ++ ':' :: d ∧ x ≠ [] ∧ (∀ c ∈ d, IsDec c = true) ∧ t = (pre ++ x).length := by
  induction mid using List.reverseRecOn generalizing suf with
  | nil => exact absurd rfl hm
  | append_singleton mid c ih =>
    have el : (pre ++ (mid ++ [c])).length - 1 = (pre ++ mid).length := by len
    rw [el] at h
    by_cases h0 : mid = []
    · subst h0
      refine .inl ?_
      rw [List.append_nil] at h
      cases hn : pre.length with
      | zero => rw [hn] at h; exact (Option.some.inj (Out.ok.inj h)).symm
      | succ k =>
        rw [hn, backColon, if_neg (by omega)] at h
        exact (Option.some.inj (Out.ok.inj h)).symm
    · have hpos : 0 < mid.length := List.length_pos_iff.2 h0
      obtain ⟨k, hk⟩ : ∃ k, (pre ++ mid).length = k + 1 := ⟨(pre ++ mid).length - 1, by simp; omega⟩
      have e : pre ++ (mid ++ [c]) ++ suf = (pre ++ mid) ++ c :: suf := by simp
      have hlo : k + 1 > pre.length := by rw [← hk]; simp; omega
      rw [hk, backColon, if_pos hlo, e, rd_mid (pre ++ mid) c suf hk.symm] at h
      have h' : (if c ≠ ':' then (if IsDec c = false then .ok none else backColon ((pre ++ mid) ++ c :: suf) pre.length k) else
        .ok (some (k + 1))) = .ok (some t) := h
      clear h
      split at h'
      · split at h'
        · cases h'
        · next hd =>
          rcases ih (c :: suf) h0 (by rw [hk]; exact h') with rfl | ⟨x, d, h1, h2, h3, h4⟩
          · exact .inl rfl
          · refine .inr ⟨x, d ++ [c], by rw [h1]; simp, h2, fun y hy => ?_, h4⟩
            rcases List.mem_append.1 hy with hy | hy
            · exact h3 y hy
            · rw [List.mem_singleton.1 hy]; simpa using hd
      · next hc =>
        refine .inr ⟨mid, [], ?_, h0, by simp, ?_⟩
        · rw [not_not.1 hc]
        · rw [hk]; exact (Option.some.inj (Out.ok.inj h')).symm

theorem position_sound (pre mid suf : Str) (hp : pre ≠ []) (hs : IsDec (peek suf) = false) (hm0 : mid = [] ∨ mid ≠ []) {f : Str} {l c : Nat}
    (h : position (pre ++ mid ++ suf) pre.length ((pre ++ mid).length - 1) = .ok (some (f, l, c))) :
    ∃ file, PosLine mid file l c ∧ f = anonymizePath file := by
  unfold position at h
  have hpl : 0 < pre.length := List.length_pos_iff.2 hp
  rcases hm0 with rfl | hm
  · exfalso
    have hb : backColon (pre ++ [] ++ suf) pre.length ((pre ++ []).length - 1) = .ok (some (pre.length - 1)) := by
      rw [List.append_nil]
      cases hk : pre.length - 1 with
      | zero => rfl
      | succ k => rw [backColon, if_neg (by omega)]
    rw [hb, Out.bind_ok] at h
    dsimp only at h
    rw [if_neg (by omega), List.append_nil, drop_len (by omega)] at h
    have : parseUint32 suf = .ok (0, none, suf) := by
      rw [C25_uint32]
      have e := (takeWhile_append_stop (a := []) (b := suf) (by simp) hs).1
      rw [List.nil_append] at e
      simp only [e]
      rw [if_neg (by simp)]
    rw [this, Out.bind_ok] at h
    cases h
  · obtain ⟨r, hr, -⟩ := backColon_bound (pre ++ mid ++ suf) pre.length ((pre ++ mid).length - 1) (by simp; omega)
    rw [hr, Out.bind_ok] at h
    cases r with
    | none => cases h
    | some t =>
      dsimp only at h
      rcases backColon_sound pre mid suf hm t hr with rfl | ⟨x, d2, hx, hx0, hd2, rfl⟩
      · rw [if_pos rfl] at h; cases h
      · have hxl : 0 < x.length := List.length_pos_iff.2 hx0
        rw [if_neg (by simp; omega)] at h
        have e1 : pre ++ mid ++ suf = (pre ++ x ++ [':']) ++ (d2 ++ suf) := by rw [hx]; simp
        rw [e1, drop_len (by len)] at h
        obtain ⟨⟨n, v, s⟩, hv⟩ := parseUint32_ok (d2 ++ suf)
        rw [hv, Out.bind_ok] at h
        cases v with
        | none => cases h
        | some v =>
          dsimp only at h
          have hn2 := Num.of_parse hd2 hs hv
          have e2 : (pre ++ x ++ [':']) ++ (d2 ++ suf) = pre ++ x ++ (':' :: (d2 ++ suf)) := by simp
          rw [e2] at h
          obtain ⟨r, hr2, -⟩ := backColon_bound (pre ++ x ++ (':' :: (d2 ++ suf))) pre.length ((pre ++ x).length - 1) (by simp; omega)
          rw [hr2, Out.bind_ok] at h
          cases r with
          | none => cases h
          | some t =>
            dsimp only at h
            rcases backColon_sound pre x (':' :: (d2 ++ suf)) hx0 t hr2 with rfl | ⟨y, d1, hy, hy0, hd1, rfl⟩
            · rw [if_pos rfl] at h; cases h
            · have hyl : 0 < y.length := List.length_pos_iff.2 hy0
              rw [if_neg (by simp; omega)] at h
              have e3 : pre ++ x ++ (':' :: (d2 ++ suf)) = (pre ++ y ++ [':']) ++ (d1 ++ (':' :: (d2 ++ suf))) := by rw [hy]; simp
              rw [e3, drop_len (by len)] at h
              obtain ⟨⟨n, v', s⟩, hv'⟩ := parseUint32_ok (d1 ++ (':' :: (d2 ++ suf)))
              rw [hv', Out.bind_ok] at h
              cases v' with
              | none => cases h
              | some v' =>
                dsimp only at h
                have hn1 := Num.of_parse hd1 (by rw [peek_cons]; decide) hv'
                have e4 : (pre ++ y ++ [':']) ++ (d1 ++ (':' :: (d2 ++ suf))) = pre ++ (y ++ (':' :: (d1 ++ (':' :: (d2 ++ suf))))) := by simp
                rw [strndupTo, if_neg (by simp), e4, drop_len rfl, Out.bind_ok, strndup] at h
                have el : (pre ++ y).length - pre.length = y.length := by simp
                rw [el, List.take_left] at h
                have e := Option.some.inj (Out.ok.inj h)
                rw [Prod.mk.injEq, Prod.mk.injEq] at e
                obtain ⟨rfl, rfl, rfl⟩ := e
                exact ⟨y, ⟨d1, d2, by rw [hx, hy], hy0, hn1, hn2⟩, rfl⟩

theorem finish_iff (pre mid suf : Str) (hp : pre ≠ []) (hs : IsDec (peek suf) = false) (hnl : '\n' ∉ mid ++ suf) (name : Option Str)
    (f : JsFrame) (rest : Str) :
    finish (pre ++ mid ++ suf) name pre.length ((pre ++ mid).length - 1) = .ok (some (f, rest)) ↔
      rest = [] ∧ ∃ file l c, PosLine mid file l c ∧ f = ⟨some (anonymizePath file), l, c, name⟩ := by
  have hcs : skipCharCspan ((pre ++ mid ++ suf).drop pre.length) c!"\n" = .ok ((mid ++ suf).length, []) := by
    rw [List.append_assoc, drop_len rfl]
    have := LineEnd.cspan (.inl rfl : LineEnd []) (mid ++ suf) hnl
    rwa [List.append_nil] at this
  unfold finish
  constructor
  · intro h
    rcases hr : position (pre ++ mid ++ suf) pre.length ((pre ++ mid).length - 1) with (_ | ⟨fi, l, c⟩) | _ | _
    · rw [hr] at h; cases h
    · rw [hr, Out.bind_ok] at h
      dsimp only at h
      rw [hcs, Out.bind_ok] at h
      obtain ⟨file, hp, rfl⟩ := position_sound pre mid suf hp hs (em _) hr
      have e := Option.some.inj (Out.ok.inj h)
      rw [Prod.mk.injEq] at e
      exact ⟨e.2.symm, file, l, c, hp, e.1.symm⟩
    · rw [hr] at h; cases h
    · rw [hr] at h; cases h
  · rintro ⟨rfl, file, l, c, ⟨d1, d2, rfl, h1, h2, h3⟩, rfl⟩
    have e : pre ++ (file ++ ':' :: d1 ++ ':' :: d2) = pre ++ file ++ ':' :: d1 ++ ':' :: d2 := by simp
    have := position_read pre file d1 d2 suf h2.digits h3.digits h2.nonempty h3.nonempty (h2.value ▸ h2.small) (h3.value ▸ h3.small) h1 hs
    rw [e] at hcs ⊢
    rw [← Nat.pred_eq_sub_one, this, Out.bind_ok]
    dsimp only
    rw [hcs, h2.value, h3.value]
    rfl

theorem backSpaces_blanks (pre body : Str) (c : Char) (t suf : Str) (lo : Nat) (hlo : lo ≤ (pre ++ body).length) (ht : Blanks t) (hc : c ≠ ' ') :
    backSpaces (pre ++ body ++ c :: t ++ suf) lo ((pre ++ body).length + t.length) = .ok (pre ++ body).length := by
  induction t using List.reverseRecOn generalizing suf with
  | nil =>
    have e : pre ++ body ++ [c] ++ suf = (pre ++ body) ++ c :: suf := by simp
    rw [e]
    exact backSpaces_stay (pre ++ body) c suf lo hc
  | append_singleton t x ih =>
    have hx : x = ' ' := ht x (by simp)
    have e : pre ++ body ++ c :: (t ++ [x]) ++ suf = (pre ++ body ++ c :: t) ++ x :: suf := by simp
    have el : (pre ++ body).length + (t ++ [x]).length = (pre ++ body).length + t.length + 1 := by len
    rw [el, backSpaces, if_pos (by omega), e, rd_mid _ x suf (by len)]
    show (if x = ' ' then _ else _) = _
    rw [if_pos hx]
    exact ih (x :: suf) fun y hy => ht y (by simp [hy])

theorem split_last (b : Str) : Blanks b ∨ ∃ body c t, b = body ++ c :: t ∧ c ≠ ' ' ∧ Blanks t := by
  induction b using List.reverseRecOn with
  | nil => exact .inl (by simp [Blanks])
  | append_singleton b x ih =>
    by_cases hx : x = ' '
    · rcases ih with h | ⟨body, c, t, h1, h2, h3⟩
      · refine .inl fun y hy => ?_
        rcases List.mem_append.1 hy with hy | hy
        · exact h y hy
        · rw [List.mem_singleton.1 hy, hx]
      · refine .inr ⟨body, c, t ++ [x], by rw [h1]; simp, h2, fun y hy => ?_⟩
        rcases List.mem_append.1 hy with hy | hy
        · exact h3 y hy
        · rw [List.mem_singleton.1 hy, hx]
    · exact .inr ⟨b, x, [], rfl, hx, by simp [Blanks]⟩

/-- What follows `at` and blanks. -/
inductive Body : Str → JsFrame → Prop
  | plain (pos blanks file : Str) (line column : Nat) : Blanks blanks → PosLine pos file line column →
      Body (pos ++ blanks) ⟨some (anonymizePath file), line, column, none⟩
  | named (name more pos blanks file : Str) (line column : Nat) : Blanks blanks →
      PosLine pos file line column → name ≠ [] → ' ' ∉ name → '(' ∉ more →
      Body (name ++ c!" " ++ more ++ c!"(" ++ pos ++ c!")" ++ blanks) ⟨some (anonymizePath file), line, column, some name⟩

theorem blanks_dec {t : Str} (h : Blanks t) : IsDec (peek t) = false := by
  cases t with
  | nil => rfl
  | cons c t => rw [peek_cons, h c (by simp)]; rfl

theorem posLine_last {pos file : Str} {l c : Nat} (h : PosLine pos file l c) : ∃ a d, pos = a ++ [d] ∧ IsDec d = true := by
  obtain ⟨d1, d2, rfl, -, -, h⟩ := h
  refine ⟨file ++ ':' :: d1 ++ ':' :: d2.dropLast, d2.getLast h.nonempty, ?_, h.digits _ (List.getLast_mem _)⟩
  conv => lhs; rw [← List.dropLast_append_getLast h.nonempty]
  simp

/-- Two ways to cut trailing blanks are the same. -/
theorem last_unique {a b : Str} {c d : Char} {t u : Str} (h : a ++ c :: t = b ++ d :: u) (hc : c ≠ ' ') (hd : d ≠ ' ') (ht : Blanks t)
    (hu : Blanks u) : a = b ∧ c = d ∧ t = u := by
  induction t using List.reverseRecOn generalizing u with
  | nil =>
    cases u using List.reverseRecOn with
    | nil =>
      have := List.append_inj' h (by simp)
      simpa using this
    | append_singleton u x =>
      exfalso
      have h' : a ++ [c] = (b ++ d :: u) ++ [x] := by rw [h]; simp
      have := List.append_inj' h' (by simp)
      rw [List.cons.injEq] at this
      exact hc (this.2.1.trans (hu x (by simp)))
  | append_singleton t x ih =>
    cases u using List.reverseRecOn with
    | nil =>
      exfalso
      have h' : (a ++ c :: t) ++ [x] = b ++ [d] := by rw [← h]; simp
      have := List.append_inj' h' (by simp)
      rw [List.cons.injEq] at this
      exact hd (this.2.1.symm.trans (ht x (by simp)))
    | append_singleton u y =>
      have h' : (a ++ c :: t) ++ [x] = (b ++ d :: u) ++ [y] := by simpa using h
      have h2 := List.append_inj' h' (by simp)
      obtain ⟨h3, h4, h5⟩ := ih h2.1 (fun z hz => ht z (by simp [hz])) (fun z hz => hu z (by simp [hz]))
      rw [List.cons.injEq] at h2
      exact ⟨h3, h4, by rw [h5, h2.2.1]⟩

theorem first_unique {a b : Str} {c : Char} {t u : Str} (h : a ++ c :: t = b ++ c :: u) (ha : c ∉ a) (hb : c ∉ b) : a = b ∧ t = u := by
  induction a generalizing b with
  | nil =>
    cases b with
    | nil => simpa using h
    | cons y b =>
      simp at h
      exact absurd (by rw [h.1]; simp) hb
  | cons x a ih =>
    cases b with
    | nil =>
      simp at h
      exact absurd (by rw [h.1]; simp) ha
    | cons y b =>
      simp at h
      obtain ⟨h1, h2⟩ := ih (b := b) (by simpa using h.2) (fun hh => ha (by simp [hh])) (fun hh => hb (by simp [hh]))
      exact ⟨by rw [h.1, h1], h2⟩

theorem parseAt_iff (pre b : Str) (hp : pre ≠ []) (hpl : pre.getLast hp = ' ') (hnl : '\n' ∉ b) (hb : peek b ≠ ' ') (f : JsFrame) (rest : Str) :
    parseAt (pre ++ b) pre.length = .ok (some (f, rest)) ↔ rest = [] ∧ Body b f := by
  have hpos : 0 < pre.length := List.length_pos_iff.2 hp
  unfold parseAt
  rw [drop_len rfl, strchrnulI_all hnl]
  rcases split_last b with hall | ⟨body, c, t, rfl, hc, ht⟩
  · have hb0 : b = [] := by
      cases b with
      | nil => rfl
      | cons x b => exact absurd (hall x (by simp)) hb
    subst hb0
    have hbk : backSpaces (pre ++ []) pre.length (pre.length + ([] : Str).length - 1) = .ok (pre.length - 1) := by
      rw [List.length_nil, Nat.add_zero]
      cases hk : pre.length - 1 with
      | zero => rfl
      | succ k => rw [backSpaces, if_neg (by omega)]
    have e : pre ++ [] = pre.dropLast ++ ' ' :: [] := by
      rw [List.append_nil]
      conv => lhs; rw [← List.dropLast_append_getLast hp, hpl]
    have hrd : rd (pre ++ []) (pre.length - 1) = .ok ' ' := by
      rw [e]; exact rd_mid _ ' ' [] (by simp)
    rw [hbk, Out.bind_ok, hrd, Out.bind_ok, if_neg (by decide)]
    have := finish_iff pre [] [] hp rfl (by simp) none f rest
    rw [List.append_nil, List.append_nil] at this
    rw [List.append_nil, this]
    constructor
    · rintro ⟨-, file, l, c, ⟨d1, d2, h, -⟩, -⟩
      exact absurd h (by simp)
    · rintro ⟨-, h⟩
      exfalso
      generalize hh : ([] : Str) = z at h
      cases h with
      | plain pos blanks file line column h1 h2 =>
        obtain ⟨a, d, h3, -⟩ := posLine_last h2
        rw [h3] at hh
        exact absurd hh (by simp)
      | named => exact absurd hh (by simp)
  · have e : pre ++ (body ++ c :: t) = pre ++ body ++ c :: t ++ [] := by simp
    have el : pre.length + (body ++ c :: t).length - 1 = (pre ++ body).length + t.length := by len
    have hrd : rd (pre ++ body ++ c :: t ++ []) (pre ++ body).length = .ok c := by
      rw [List.append_nil]; exact rd_mid _ c t rfl
    rw [el, e, backSpaces_blanks pre body c t [] pre.length (by simp) ht hc, Out.bind_ok, hrd, Out.bind_ok]
    by_cases hcp : c = ')'
    · subst hcp
      rw [if_pos rfl]
      constructor
      · intro h
        unfold functionName at h
        have ed : (pre ++ body ++ ')' :: t ++ []).drop pre.length = body ++ ')' :: t := by
          rw [← e]; exact drop_len rfl
        rw [ed] at h
        obtain ⟨name, s, hs, hn, hse, hk⟩ := span_split (body ++ ')' :: t) c!" \n"
        rw [hk, Out.bind_ok] at h
        dsimp only at h
        split at h
        · cases h
        next hcond =>
        push Not at hcond
        obtain ⟨more, s2, hs2, hm, hse2, hk2⟩ := span_split s c!"(\n"
        rw [hk2, Out.bind_ok] at h
        dsimp only at h
        split at h
        · cases h
        next hcond2 =>
        push Not at hcond2
        rw [Out.bind_ok] at h
        dsimp only at h
        cases s2 with
        | nil => exact absurd hcond2.2 (by decide)
        | cons x s2 =>
          have hx : x = '(' := hcond2.2
          subst hx
          cases more with
          | nil => exact absurd rfl hcond2.1
          | cons y more =>
            have hy : y = ' ' := by
              have := hcond.2
              rw [hs2] at this
              exact this
            subst hy
            have hname : strndup (body ++ ')' :: t) name.length = name := by
              rw [hs]; unfold strndup; exact List.take_left
            rw [hname] at h
            rcases split_last s2 with hbl | ⟨mid, c2, t2, rfl, hc2, ht2⟩
            · exfalso
              have hh : body ++ ')' :: t = (name ++ ' ' :: more) ++ '(' :: s2 := by rw [hs, hs2]; simp
              exact absurd (last_unique hh (by decide) (by decide) ht hbl).2.1 (by decide)
            · have hh : body ++ ')' :: t = ((name ++ ' ' :: more) ++ '(' :: mid) ++ c2 :: t2 := by rw [hs, hs2]; simp
              obtain ⟨rfl, rfl, rfl⟩ := last_unique hh (by decide) hc2 ht ht2
              have e5 : pre ++ (name ++ ' ' :: more ++ '(' :: mid) ++ ')' :: t ++ [] =
                  (pre ++ (name ++ ' ' :: more ++ ['('])) ++ mid ++ ')' :: t := by simp
              have l1 : pre.length + name.length + (' ' :: more).length + 1 = (pre ++ (name ++ ' ' :: more ++ ['('])).length := by len
              have l2 : (pre ++ (name ++ ' ' :: more ++ '(' :: mid)).length - 1 = ((pre ++ (name ++ ' ' :: more ++ ['('])) ++ mid).length - 1 := by
                len
              rw [e5, l1, l2] at h
              obtain ⟨hr, file, l, c, hpl, hf⟩ := (finish_iff (pre ++ (name ++ ' ' :: more ++ ['('])) mid (')' :: t) (by simp)
                (by rw [peek_cons]; rfl) (fun hm => hnl (by simp at hm ⊢; tauto)) (some name) f rest).1 h
              refine ⟨hr, ?_⟩
              have e6 : name ++ ' ' :: more ++ '(' :: mid ++ ')' :: t = name ++ c!" " ++ more ++ c!"(" ++ mid ++ c!")" ++ t := by simp
              rw [hf, e6]
              exact .named name more mid t file l c ht hpl (fun h0 => by rw [h0] at hcond; exact hcond.1 rfl)
                (fun hh => hn _ hh (by decide)) (fun hh => hm '(' (by simp [hh]) (by decide))
      · rintro ⟨rfl, h⟩
        generalize hbb : body ++ ')' :: t = z at h
        cases h with
        | plain pos blanks file line column h1 h2 =>
          exfalso
          obtain ⟨a, d, rfl, hd⟩ := posLine_last h2
          have hh : body ++ ')' :: t = a ++ d :: blanks := by rw [hbb]; simp
          have hdb : d ≠ ' ' := by rintro rfl; exact absurd hd (by decide)
          have := (last_unique hh (by decide) hdb ht h1).2.1
          rw [← this] at hd
          exact absurd hd (by decide)
        | named name more pos blanks file line column h1 h2 h3 h4 h5 =>
          have hh : body ++ ')' :: t = (name ++ ' ' :: more ++ '(' :: pos) ++ ')' :: blanks := by rw [hbb]; simp
          obtain ⟨rfl, -, rfl⟩ := last_unique hh (by decide) (by decide) ht h1
          have hnln : '\n' ∉ name := fun h => hnl (by simp [h])
          have hnlm : '\n' ∉ more := fun h => hnl (by simp [h])
          have ed : (pre ++ (name ++ ' ' :: more ++ '(' :: pos) ++ ')' :: t ++ []).drop pre.length = name ++ (' ' :: more ++ '(' :: (pos ++ ')' :: t)) := by
            rw [← e, drop_len rfl]; simp
          have hfn : functionName (pre ++ (name ++ ' ' :: more ++ '(' :: pos) ++ ')' :: t ++ []) pre.length
              (pre ++ (name ++ ' ' :: more ++ '(' :: pos)).length =
              .ok (some (name, (pre ++ (name ++ ' ' :: more ++ ['('])).length, ((pre ++ (name ++ ' ' :: more ++ ['('])) ++ pos).length - 1)) := by
            unfold functionName
            rw [ed, skipCspan_append (a := name) (fun c hc => by
              simp only [List.mem_cons, List.not_mem_nil, or_false]
              rintro (rfl | rfl)
              · exact h4 hc
              · exact hnln hc) (Or.inr (by simp)), Out.bind_ok]
            dsimp only
            rw [if_neg (by simp [h3]), strndup, List.take_left, skipCspan_append (a := ' ' :: more) (fun c hc => by
              simp only [List.mem_cons, List.not_mem_nil, or_false] at hc ⊢
              rintro (rfl | rfl)
              · exact h5 (by simpa using hc)
              · exact hnlm (by simpa using hc)) (Or.inr (by simp)), Out.bind_ok]
            dsimp only
            rw [if_neg (by simp)]
            congr 4
            · len
            · len
          rw [hfn, Out.bind_ok]
          dsimp only
          have e5 : pre ++ (name ++ ' ' :: more ++ '(' :: pos) ++ ')' :: t ++ [] =
              (pre ++ (name ++ ' ' :: more ++ ['('])) ++ pos ++ ')' :: t := by simp
          rw [e5]
          exact (finish_iff (pre ++ (name ++ ' ' :: more ++ ['('])) pos (')' :: t) (by simp)
                (by rw [peek_cons]; rfl) (fun hm => hnl (by simp at hm ⊢; tauto)) (some name) _ _).2 ⟨rfl, file, line, column, h2, rfl⟩
    · rw [if_neg hcp]
      have e5 : pre ++ body ++ c :: t ++ [] = pre ++ (body ++ [c]) ++ t := by simp
      have l2 : (pre ++ body).length = (pre ++ (body ++ [c])).length - 1 := by len
      rw [e5, l2, finish_iff pre (body ++ [c]) t hp (blanks_dec ht) (fun hm => hnl (by simpa using hm)) none f rest]
      refine and_congr_right fun _ => ⟨?_, fun h => ?_⟩
      · rintro ⟨file, l, cc, h1, rfl⟩
        have e6 : body ++ c :: t = (body ++ [c]) ++ t := by simp
        rw [e6]
        exact .plain _ t file l cc ht h1
      · generalize hbb : body ++ c :: t = z at h
        cases h with
        | plain pos blanks file line column h1 h2 =>
          obtain ⟨a, d, rfl, hd⟩ := posLine_last h2
          have hh : body ++ c :: t = a ++ d :: blanks := by rw [hbb]; simp
          have hdb : d ≠ ' ' := by rintro rfl; exact absurd hd (by decide)
          obtain ⟨rfl, rfl, rfl⟩ := last_unique hh hc hdb ht h1
          exact ⟨file, line, column, h2, rfl⟩
        | named name more pos blanks file line column h1 h2 h3 h4 h5 =>
          have hh : body ++ c :: t = (name ++ ' ' :: more ++ '(' :: pos) ++ ')' :: blanks := by rw [hbb]; simp
          exact absurd (last_unique hh hc (by decide) ht h1).2.1 hcp

theorem frameLine_body {line : Str} {f : JsFrame} : FrameLine line f ↔ ∃ ind gap b, line = ind ++ (c!"at " ++ (gap ++ b)) ∧ Blanks ind ∧ Blanks gap ∧
    peek b ≠ ' ' ∧ Body b f := by
  constructor
  · rintro (⟨ind, gap, pos, blanks, file, line, column, h1, h2, h3, h4, h5⟩ | ⟨ind, gap, name, more, pos, blanks, file, line, column, h1, h2, h3, h4, h5, h6, h7⟩)
    · refine ⟨ind, gap, pos ++ blanks, by simp, h1, h2, ?_, .plain _ _ _ _ _ h3 h4⟩
      obtain ⟨d1, d2, rfl, h6, -⟩ := h4
      cases file with
      | nil => exact absurd rfl h6
      | cons x file =>
        intro hx
        exact h5 (by rw [show x = ' ' from hx]; rfl)
    · refine ⟨ind, gap, name ++ c!" " ++ more ++ c!"(" ++ pos ++ c!")" ++ blanks, by simp, h1, h2, ?_, .named _ _ _ _ _ _ _ h3 h4 h5 h6 h7⟩
      cases name with
      | nil => exact absurd rfl h5
      | cons x name =>
        intro hx
        exact h6 (by rw [show x = ' ' from hx]; simp)
  · rintro ⟨ind, gap, b, rfl, h1, h2, h3, h4⟩
    cases h4 with
    | plain pos blanks file line column h4 h5 =>
      have e : ind ++ (c!"at " ++ (gap ++ (pos ++ blanks))) = ind ++ c!"at " ++ gap ++ pos ++ blanks := by simp
      rw [e]
      refine .plain ind gap pos blanks file line column h1 h2 h4 h5 fun hh => h3 ?_
      obtain ⟨d1, d2, rfl, -⟩ := h5
      cases file with
      | nil => cases hh
      | cons x file => exact Option.some.inj hh
    | named name more pos blanks file line column h4 h5 h6 h7 h8 =>
      have e : ind ++ (c!"at " ++ (gap ++ (name ++ c!" " ++ more ++ c!"(" ++ pos ++ c!")" ++ blanks))) =
          ind ++ c!"at " ++ gap ++ name ++ c!" " ++ more ++ c!"(" ++ pos ++ c!")" ++ blanks := by simp
      rw [e]
      exact .named _ _ _ _ _ _ _ _ _ h1 h2 h4 h5 h6 h7 h8

theorem blanks_split (s : Str) : ∃ u v, s = u ++ v ∧ Blanks u ∧ peek v ≠ ' ' ∧ skipCharSpan s c!" " = .ok (u.length, v) := by
  rw [skipCharSpan_eq]
  refine ⟨_, _, List.takeWhile_append_dropWhile.symm, fun c hc => by simpa using List.mem_takeWhile_imp hc, ?_, rfl⟩
  cases h : s.dropWhile (fun c => c!" ".contains c) with
  | nil => decide
  | cons x t =>
    have := List.head_dropWhile_not (l := s) (fun c => c!" ".contains c) (by rw [h]; simp)
    simp only [h] at this
    have this' : c!" ".contains x = false := this
    intro hx
    rw [show x = ' ' from hx] at this'
    exact absurd this' (by decide)

/-- C51: exactly the lines of the two forms are read as frames, and the frame read is the one written there. -/
theorem C51_lines (line : Str) (hnl : '\n' ∉ line) (f : JsFrame) (rest : Str) :
    parseFrame line = .ok (some (f, rest)) ↔ rest = [] ∧ FrameLine line f := by
  have lead : ∀ ind t gap b : Str, Blanks ind → line = ind ++ (c!"at " ++ t) → t = gap ++ b → Blanks gap → peek b ≠ ' ' →
      parseFrame line = parseAt ((ind ++ c!"at " ++ gap) ++ b) (ind ++ c!"at " ++ gap).length := by
    intro ind t gap b h1 h2 h3 h4 h5
    unfold parseFrame
    rw [h2, skipSpan_append (fun c hc => by simp [h1 c hc]) (by show 'a' ∉ c!" "; decide), Out.bind_ok]
    dsimp only
    rw [skipString_append]
    dsimp only
    rw [if_neg (by decide), h3, skipSpan_append (fun c hc => by simp [h4 c hc]) (by simpa using h5), Out.bind_ok]
    dsimp only
    congr 1
    · simp
    · len
  have last : ∀ ind gap : Str, Blanks gap → ∃ h : ind ++ c!"at " ++ gap ≠ [], (ind ++ c!"at " ++ gap).getLast h = ' ' := by
    intro ind gap h
    refine ⟨by simp, ?_⟩
    cases gap using List.reverseRecOn with
    | nil => simp
    | append_singleton gap x => simp; exact h x (by simp)
  rw [frameLine_body]
  constructor
  · intro h
    obtain ⟨ind, s, rfl, h1, h2, hk⟩ := blanks_split line
    rcases skipString_cases s c!"at " with ⟨t, rfl, -⟩ | hks
    · obtain ⟨gap, b, rfl, h3, h4, -⟩ := blanks_split t
      rw [lead ind _ gap b h1 rfl rfl h3 h4] at h
      obtain ⟨hl, hl2⟩ := last ind gap h3
      obtain ⟨h5, h6⟩ := (parseAt_iff _ b hl hl2 (fun hh => hnl (by simp [hh])) h4 f rest).1 h
      exact ⟨h5, ind, gap, b, rfl, h1, h3, h4, h6⟩
    · unfold parseFrame at h
      rw [hk, Out.bind_ok] at h
      dsimp only at h
      rw [hks] at h
      cases h
  · rintro ⟨rfl, ind, gap, b, rfl, h1, h2, h3, h4⟩
    rw [lead ind _ gap b h1 rfl rfl h2 h3]
    obtain ⟨hl, hl2⟩ := last ind gap h2
    exact (parseAt_iff _ b hl hl2 (fun hh => hnl (by simp [hh])) h3 f []).2 ⟨rfl, h4⟩

example : FrameLine c!"    at f [as g] (a b:7:08)  " ⟨some c!"a b", 7, 8, some c!"f"⟩ :=
  .named c!"    " [] c!"f" c!"[as g] " c!"a b:7:08" c!"  " c!"a b" 7 8 (by simp [Blanks]) (by simp [Blanks]) (by simp [Blanks])
    ⟨c!"7", c!"08", rfl, by decide, ⟨by decide, by decide, by decide, by decide⟩, ⟨by decide, by decide, by decide, by decide⟩⟩
    (by decide) (by decide) (by decide)

end Satyr.Text.Js
