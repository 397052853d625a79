import Verif.Rpm.Model
import Verif.CStr.Num
import Mathlib.Data.List.Induction
import Mathlib.Tactic.IntervalCases
/-!
# C35: package names are parsed exactly
-/
namespace Satyr.Rpm
open Satyr.CStr

/-! ## Specification -/

/-- The text of an epoch: optional white space, an optional plus sign and decimal digits. -/
def EpochText (s : Str) (e : Nat) : Prop :=
  ∃ ws sign ds : Str, s = ws ++ sign ++ ds ∧ (∀ c ∈ ws, isSpace c = true) ∧ (sign = [] ∨ sign = ['+']) ∧ ds ≠ [] ∧
    (∀ c ∈ ds, IsDec c = true) ∧ decValue ds = e ∧ e < 2 ^ 32

/-- How a package is written: `name-version-release.arch`, or with `epoch:` before the version. -/
def printNevra (name : Str) (epoch : Option Nat) (version release architecture : Str) : Str :=
  name ++ '-' :: ((match epoch with | some e => natDec e ++ [':'] | none => []) ++ version) ++ '-' :: (release ++ '.' :: architecture)

/-! ## The search for the dash before -/

theorem backToDash_skip (a m t : Str) (h : '-' ∉ m) :
    backToDash (a ++ m ++ t) (a.length + m.length) = backToDash (a ++ m ++ t) a.length := by
  induction m using List.reverseRecOn generalizing t with
  | nil => rfl
  | append_singleton m x ih =>
    simp only [List.mem_append, List.mem_singleton, not_or] at h
    have he : a ++ (m ++ [x]) ++ t = a ++ m ++ (x :: t) := by simp
    rw [he, List.length_append, List.length_singleton, ← Nat.add_assoc, backToDash]
    rw [if_neg]
    · exact ih _ h.1
    · rw [List.getElem?_append_right (by simp)]
      simp only [List.length_append, Nat.sub_self, List.getElem?_cons_zero, Option.some.injEq]
      exact fun e => h.2 e.symm

theorem backToDash_found (a m t : Str) (h : '-' ∉ m) :
    backToDash (a ++ '-' :: m ++ t) (a.length + 1 + m.length) = a.length := by
  have h1 := backToDash_skip (a ++ ['-']) m t h
  simp only [List.append_assoc, List.singleton_append, List.length_append, List.length_singleton] at h1
  rw [List.append_assoc]
  exact h1.trans (by rw [backToDash, if_pos (by simp)])

theorem backToDash_none (m t : Str) (h : '-' ∉ m) : backToDash (m ++ t) m.length = 0 := by
  have := backToDash_skip [] m t h
  simpa [backToDash] using this

theorem drop_at (a b : Str) (x : Char) : (a ++ x :: b).drop (a.length + 1) = b := by
  rw [← List.drop_drop, List.drop_left]; rfl

/-! ## NVR -/

theorem parseNvr_eq {n v r : Str} (hv : '-' ∉ v) (hr : '-' ∉ r) (hn : n ≠ []) (hv0 : v ≠ []) :
    parseNvr (n ++ '-' :: v ++ '-' :: r) = some (n, v, r) := by
  unfold parseNvr
  rw [strrchrI_append hr]
  have hb : backToDash (n ++ '-' :: v ++ '-' :: r) (n ++ '-' :: v).length = n.length := by
    rw [show (n ++ '-' :: v).length = n.length + 1 + v.length by simp; omega]
    exact backToDash_found n v _ hv
  simp only [hb]
  have h1 : n.length ≠ 0 := by simpa using hn
  have h2 : v.length ≠ 0 := by simpa using hv0
  have hl : (n ++ '-' :: v).length - n.length = v.length + 1 := by simp
  rw [hl, if_neg (by omega), drop_at]
  congr 2
  · unfold strndup; rw [List.append_assoc, List.take_left]
  · unfold strndup
    rw [List.append_assoc, List.cons_append, drop_at]
    simp

/-- C35: exactly the texts `name-version-release` with non-empty name and version and no dash in version and release are
accepted, and these parts are returned. -/
theorem C35_nvr (text n v r : Str) : parseNvr text = some (n, v, r) ↔
    text = n ++ '-' :: v ++ '-' :: r ∧ '-' ∉ v ∧ '-' ∉ r ∧ n ≠ [] ∧ v ≠ [] := by
  constructor
  · intro h
    by_cases hd : '-' ∈ text
    · obtain ⟨p, r', rfl, hr'⟩ := last_split hd
      by_cases hp : '-' ∈ p
      · obtain ⟨n', v', rfl, hv'⟩ := last_split hp
        by_cases h0 : n' = [] ∨ v' = []
        · exfalso
          unfold parseNvr at h
          rw [strrchrI_append hr'] at h
          have hb : backToDash (n' ++ '-' :: v' ++ '-' :: r') (n' ++ '-' :: v').length = n'.length := by
            rw [show (n' ++ '-' :: v').length = n'.length + 1 + v'.length by simp; omega]
            exact backToDash_found n' v' _ hv'
          simp only [hb] at h
          rw [if_pos] at h
          · cases h
          · rcases h0 with rfl | rfl <;> simp
        · rw [not_or] at h0
          rw [parseNvr_eq hv' hr' h0.1 h0.2] at h
          cases h
          exact ⟨rfl, hv', hr', h0.1, h0.2⟩
      · exfalso
        unfold parseNvr at h
        rw [strrchrI_append hr'] at h
        simp only [backToDash_none p _ hp, true_or, if_true] at h
        cases h
    · exfalso
      unfold parseNvr at h
      rw [strrchrI_none.2 hd] at h
      cases h
  · rintro ⟨rfl, hv, hr, hn, hv0⟩
    exact parseNvr_eq hv hr hn hv0

example : parseNvr c!"kernel-headers-3.6.0-1.fc18" = some (c!"kernel-headers", c!"3.6.0", c!"1.fc18") := by decide +kernel
example : parseNvr c!"3.6.0-1.fc18" = none := by decide +kernel

/-! ## Epoch -/

theorem digitVal_dec (c : Char) : decide (digitVal c < 10) = IsDec c := by
  by_cases h : IsDec c = true
  · rw [h, decide_eq_true_eq]
    exact (digits10_val c (List.contains_iff_mem.1 h)).2.1
  · rw [Bool.not_eq_true] at h
    rw [h, decide_eq_false_iff_not]
    intro hlt
    have hm : c ∉ c!"0123456789" := by
      intro hm
      rw [← List.contains_iff_mem] at hm
      have h' : c!"0123456789".contains c = false := h
      rw [hm] at h'; cases h'
    unfold digitVal at hlt
    split at hlt
    · next hc =>
      apply hm
      have h48 : 48 ≤ c.toNat := hc.1
      have h57 : c.toNat ≤ 57 := hc.2
      have : c = Char.ofNat c.toNat := (Char.ofNat_toNat c).symm
      rw [this]
      generalize c.toNat = k at h48 h57
      interval_cases k <;> decide
    · split at hlt
      · next hc => have : 97 ≤ c.toNat := hc.1; omega
      · split at hlt
        · next hc => have : 65 ≤ c.toNat := hc.1; omega
        · omega

/-- The text after white space and a plus sign. -/
def afterSign (s : Str) : Str := if peek (s.dropWhile isSpace) = '+' then (s.dropWhile isSpace).tail else s.dropWhile isSpace

theorem strtoull10 (s : Str) (hm : peek (s.dropWhile isSpace) ≠ '-') :
    strtoull 10 s =
      if (afterSign s).takeWhile IsDec = [] then ⟨0, false, true, s⟩
      else if decValue ((afterSign s).takeWhile IsDec) > ullMax then ⟨ullMax, true, false, (afterSign s).dropWhile IsDec⟩
      else ⟨decValue ((afterSign s).takeWhile IsDec), false, false, (afterSign s).dropWhile IsDec⟩ := by
  unfold strtoull afterSign
  have h1 : (fun c => decide (digitVal c < 10)) = IsDec := funext digitVal_dec
  have h2 : (peek (s.dropWhile isSpace) == '-') = false := by simpa using hm
  simp only [h1, h2, Bool.false_or, show (10 : Nat) ≠ 16 by decide, false_and, if_false, Bool.false_eq_true, beq_iff_eq]
  rw [ofDigits_dec (fun c hc => List.mem_takeWhile_imp hc)]

theorem parseEpoch_eq (s : Str) (hm : peek (s.dropWhile isSpace) ≠ '-') :
    parseEpoch s = if (afterSign s).takeWhile IsDec ≠ [] ∧ (afterSign s).dropWhile IsDec = [] ∧
      decValue ((afterSign s).takeWhile IsDec) < 2 ^ 32 then some (decValue ((afterSign s).takeWhile IsDec)) else none := by
  have h := strtoull10 s hm
  unfold parseEpoch
  generalize strtoull 10 s = r at h
  generalize afterSign s = t at h ⊢
  by_cases h1 : t.takeWhile IsDec = []
  · rw [if_pos h1] at h
    subst h
    simp [h1]
  · rw [if_neg h1] at h
    by_cases h2 : decValue (t.takeWhile IsDec) > ullMax
    · rw [if_pos h2] at h
      subst h
      have : ¬ decValue (t.takeWhile IsDec) < 2 ^ 32 := by unfold ullMax at h2; omega
      exact (if_pos rfl).trans (if_neg (fun h => this h.2.2)).symm
    · rw [if_neg h2] at h
      subst h
      dsimp only
      rw [Bool.false_or, Bool.false_or]
      by_cases h3 : t.dropWhile IsDec = []
      · have hf : decide (t.dropWhile IsDec ≠ []) = false := by simp [h3]
        rw [hf, Bool.false_or]
        by_cases h4 : decValue (t.takeWhile IsDec) < 2 ^ 32
        · rw [if_neg (by rw [decide_eq_true_eq]; omega), if_pos ⟨h1, h3, h4⟩]
        · rw [if_pos (by rw [decide_eq_true_eq]; omega), if_neg (fun h => h4 h.2.2)]
      · have hf : decide (t.dropWhile IsDec ≠ []) = true := decide_eq_true h3
        rw [hf, Bool.true_or, if_pos rfl, if_neg (fun h => h3 h.2.1)]

theorem parseEpoch_iff {s : Str} (hs : '-' ∉ s) (e : Nat) : parseEpoch s = some e ↔ EpochText s e := by
  have hm : peek (s.dropWhile isSpace) ≠ '-' := by
    intro h
    cases hd : s.dropWhile isSpace with
    | nil => rw [hd] at h; revert h; decide
    | cons x t =>
      rw [hd] at h
      apply hs
      have : x ∈ s := (List.dropWhile_sublist isSpace).subset (by rw [hd]; simp)
      have hx : x = '-' := h
      rwa [hx] at this
  rw [parseEpoch_eq s hm]
  constructor
  · intro h
    split at h
    · next hc =>
      cases h
      have hall : (afterSign s).takeWhile IsDec = afterSign s := by
        have := List.takeWhile_append_dropWhile (p := IsDec) (l := afterSign s)
        rw [hc.2.1, List.append_nil] at this
        exact this
      refine ⟨s.takeWhile isSpace, if peek (s.dropWhile isSpace) = '+' then ['+'] else [], (afterSign s).takeWhile IsDec, ?_,
        fun c hc => List.mem_takeWhile_imp hc, ?_, hc.1, fun c hc => List.mem_takeWhile_imp hc, rfl, hc.2.2⟩
      · rw [hall, List.append_assoc]
        refine (List.takeWhile_append_dropWhile (p := isSpace) (l := s)).symm.trans (congrArg _ ?_)
        unfold afterSign
        generalize s.dropWhile isSpace = s1
        by_cases hp : peek s1 = '+'
        · rw [if_pos hp, if_pos hp]
          cases s1 with
          | nil => revert hp; decide
          | cons x t => have hx : x = '+' := hp; rw [hx]; rfl
        · rw [if_neg hp, if_neg hp]; rfl
      · split
        · exact Or.inr rfl
        · exact Or.inl rfl
    · cases h
  · rintro ⟨ws, sign, ds, rfl, hws, hsign, hds, hdec, rfl, he⟩
    have hdig : ∀ c ∈ ds, isSpace c = false ∧ c ≠ '+' := fun c hc => by
      obtain ⟨-, -, h2, -, h4, -⟩ := digits10_val c (List.contains_iff_mem.1 (hdec c hc))
      exact ⟨h2, h4⟩
    have h1 : (ws ++ sign ++ ds).dropWhile isSpace = sign ++ ds := by
      rw [List.append_assoc, List.dropWhile_append_of_pos hws]
      cases ds with
      | nil => exact absurd rfl hds
      | cons d ds =>
        rcases hsign with rfl | rfl
        · rw [List.nil_append, List.dropWhile_cons, if_neg (by simp [(hdig d (by simp)).1])]
        · rw [List.singleton_append, List.dropWhile_cons, if_neg (by decide)]
    have h2 : (if peek (sign ++ ds) = '+' then (sign ++ ds).tail else sign ++ ds) = ds := by
      rcases hsign with rfl | rfl
      · rw [List.nil_append, if_neg]
        cases ds with
        | nil => exact absurd rfl hds
        | cons d ds => exact (hdig d (by simp)).2
      · rfl
    have h3 : ds.takeWhile IsDec = ds := List.takeWhile_eq_self_iff.2 hdec
    have h4 : ds.dropWhile IsDec = [] := List.dropWhile_eq_nil_iff.2 hdec
    have h5 : afterSign (ws ++ sign ++ ds) = ds := by unfold afterSign; rw [h1, h2]
    rw [h5, h3, h4, if_pos ⟨hds, rfl, he⟩]

/-! ## NEVRA -/

/-- The text written as its parts. -/
def nevraText (n ev r a : Str) : Str := n ++ '-' :: ev ++ '-' :: (r ++ '.' :: a)

/-- The parts are as they should be. -/
structure NevraParts (n ev r a : Str) : Prop where
  ev_dash : '-' ∉ ev
  r_dash : '-' ∉ r
  a_dash : '-' ∉ a
  a_dot : '.' ∉ a
  n_ne : n ≠ []
  ev_ne : ev ≠ []
  r_ne : r ≠ []

theorem parseNevra_eq {n ev r a : Str} (h : NevraParts n ev r a) :
    parseNevra (nevraText n ev r a) =
      match strchrI ':' ev with
      | none => .ok n 0 ev r a
      | some i =>
        if i + 1 = ev.length ∨ i = 0 then .fail
        else match parseEpoch (ev.take i) with
          | none => .failDangling
          | some e => .ok n e (ev.drop (i + 1)) r a := by
  have hdash : strrchrI '-' (nevraText n ev r a) = some (n.length + 1 + ev.length) := by
    unfold nevraText
    rw [strrchrI_append (by simp [h.r_dash, h.a_dash])]
    simp; omega
  have hdot : strrchrI '.' (nevraText n ev r a) = some (n.length + 1 + ev.length + 1 + r.length) := by
    unfold nevraText
    rw [show n ++ '-' :: ev ++ '-' :: (r ++ '.' :: a) = (n ++ '-' :: ev ++ '-' :: r) ++ '.' :: a by simp,
      strrchrI_append h.a_dot]
    simp; omega
  have hb : backToDash (nevraText n ev r a) (n.length + 1 + ev.length) = n.length := backToDash_found n ev _ h.ev_dash
  have h1 : n.length ≠ 0 := by simpa using h.n_ne
  have h2 : ev.length ≠ 0 := by simpa using h.ev_ne
  have h3 : r.length ≠ 0 := by simpa using h.r_ne
  have hname : strndup (nevraText n ev r a) n.length = n := by
    unfold strndup nevraText; rw [List.append_assoc, List.take_left]
  have hafter : (nevraText n ev r a).drop (n.length + 1) = ev ++ '-' :: (r ++ '.' :: a) := by
    unfold nevraText; rw [List.append_assoc, List.cons_append, drop_at]
  have hafter2 : (nevraText n ev r a).drop (n.length + 1 + ev.length + 1) = r ++ '.' :: a := by
    rw [Nat.add_assoc (n.length + 1), ← List.drop_drop, hafter, drop_at]
  have harch : (nevraText n ev r a).drop (n.length + 1 + ev.length + 1 + r.length + 1) = a := by
    rw [Nat.add_assoc (n.length + 1 + ev.length + 1), ← List.drop_drop, hafter2, drop_at]
  unfold parseNevra
  rw [hdot, hdash]
  simp only [hb, hname, hafter, hafter2, harch]
  rw [if_neg (by omega), if_neg (by omega)]
  have hrel : strndup (r ++ '.' :: a) (n.length + 1 + ev.length + 1 + r.length - (n.length + 1 + ev.length) - 1) = r := by
    rw [show n.length + 1 + ev.length + 1 + r.length - (n.length + 1 + ev.length) - 1 = r.length by omega]
    exact List.take_left
  rw [hrel]
  have hdropn : (nevraText n ev r a).drop n.length = '-' :: (ev ++ '-' :: (r ++ '.' :: a)) := by
    unfold nevraText; rw [List.append_assoc, List.drop_left]; rfl
  cases hc : strchrI ':' ev with
  | none =>
    have hnc := strchrI_none.1 hc
    have hf : findColon (nevraText n ev r a) n.length (n.length + 1 + ev.length) = none := by
      unfold findColon
      rw [hdropn]
      split
      · rfl
      · next i hi =>
        rw [if_pos]
        obtain ⟨x, y, hx, hx1, hx2⟩ := strchrI_some.1 hi
        by_contra hle
        have hlen : x.length ≤ ev.length + 1 := by omega
        have hmem : ('-' :: (ev ++ '-' :: (r ++ '.' :: a)))[x.length]? = some ':' := by rw [hx]; simp
        have : (('-' :: ev) ++ '-' :: (r ++ '.' :: a))[x.length]? = some ':' := hmem
        rcases Nat.lt_or_ge x.length ('-' :: ev).length with hlt | hge
        · rw [List.getElem?_append_left hlt] at this
          have := List.mem_of_getElem? this
          rw [List.mem_cons] at this
          rcases this with h | h
          · revert h; decide
          · exact hnc h
        · rw [List.getElem?_append_right hge] at this
          have hz : x.length - ('-' :: ev).length = 0 := by rw [List.length_cons]; omega
          rw [hz] at this
          revert this; simp
    rw [hf]
    simp only
    rw [show n.length + 1 + ev.length - n.length - 1 = ev.length by omega]
    unfold strndup
    rw [List.take_left]
  | some i =>
    obtain ⟨es, v, hev, hes, hi⟩ := strchrI_some.1 hc
    have hf : findColon (nevraText n ev r a) n.length (n.length + 1 + ev.length) = some (n.length + 1 + i) := by
      unfold findColon
      rw [hdropn, hev]
      have : strchrI ':' ('-' :: ((es ++ ':' :: v) ++ '-' :: (r ++ '.' :: a))) = some (i + 1) :=
        strchrI_some.2 ⟨'-' :: es, v ++ '-' :: (r ++ '.' :: a), by simp, by simp [hes], by simp [hi]⟩
      rw [this]
      simp only
      rw [if_neg (by rw [List.length_append, List.length_cons]; omega)]
      congr 1; omega
    have hlen : ev.length = i + 1 + v.length := by rw [hev, ← hi]; simp; omega
    rw [hf]
    simp only
    by_cases hz : i + 1 = ev.length ∨ i = 0
    · rw [if_pos hz, if_pos (by omega)]
    · rw [if_neg hz, if_neg (by omega)]
      have he : strndup (ev ++ '-' :: (r ++ '.' :: a)) (n.length + 1 + i - n.length - 1) = ev.take i := by
        rw [show n.length + 1 + i - n.length - 1 = i by omega]
        unfold strndup
        rw [List.take_append_of_le_length (by omega)]
      have hv : strndup ((nevraText n ev r a).drop (n.length + 1 + i + 1)) (n.length + 1 + ev.length - (n.length + 1 + i) - 1) =
          ev.drop (i + 1) := by
        rw [Nat.add_assoc (n.length + 1), ← List.drop_drop, hafter]
        unfold strndup
        rw [List.drop_append_of_le_length (by omega)]
        rw [show n.length + 1 + ev.length - (n.length + 1 + i) - 1 = (ev.drop (i + 1)).length by rw [List.length_drop]; omega]
        exact List.take_left
      rw [he, hv]
      cases parseEpoch (ev.take i) <;> rfl

/-- Whatever is not refused at once has the parts. -/
theorem parseNevra_parts {text : Str} (h : parseNevra text ≠ .fail) : ∃ n ev r a, text = nevraText n ev r a ∧ NevraParts n ev r a := by
  unfold parseNevra at h
  split at h
  · next lastDot lastDash hdot hdash =>
    obtain ⟨p, q, rfl, hq, hp⟩ := strrchrI_some.1 hdash
    subst hp
    simp only at h
    split at h
    · exact absurd rfl h
    · next hlt =>
      split at h
      · exact absurd rfl h
      · next hb =>
        by_cases hqd : '.' ∈ q
        · obtain ⟨r, a, rfl, ha⟩ := last_split hqd
          have hl : lastDot = p.length + 1 + r.length := by
            rw [show p ++ '-' :: (r ++ '.' :: a) = (p ++ '-' :: r) ++ '.' :: a by simp, strrchrI_append ha] at hdot
            cases hdot; simp; omega
          by_cases hpd : '-' ∈ p
          · obtain ⟨n, ev, rfl, hev⟩ := last_split hpd
            simp only [List.mem_append, List.mem_cons, not_or] at hq
            have hbk : backToDash (n ++ '-' :: ev ++ '-' :: (r ++ '.' :: a)) (n ++ '-' :: ev).length = n.length := by
              rw [show (n ++ '-' :: ev).length = n.length + 1 + ev.length by simp; omega]
              exact backToDash_found n ev _ hev
            rw [hbk] at hb
            simp only [List.length_append, List.length_cons] at hb hlt hl
            refine ⟨n, ev, r, a, rfl, hev, hq.1, hq.2.2, ha, ?_, ?_, ?_⟩
            · rintro rfl; simp at hb
            · rintro rfl; simp at hb
            · rintro rfl; simp at hl; omega
          · exact absurd (Or.inl (backToDash_none p _ hpd)) hb
        · exfalso
          obtain ⟨u, w, hu, hw, hul⟩ := strrchrI_some.1 hdot
          apply hlt
          rw [← hul]
          by_contra hcon
          have hget : (p ++ '-' :: q)[u.length]? = some '.' := by rw [hu]; simp
          rw [List.getElem?_append_right (by omega)] at hget
          have hmem := List.mem_of_getElem? hget
          rw [List.mem_cons] at hmem
          rcases hmem with h | h
          · revert h; decide
          · exact hqd h
  · exact absurd rfl h

/-- C35: exactly the texts `name-version-release.arch` and `name-epoch:version-release.arch` are accepted (with dash-free
version, release and architecture, dot-free architecture, colon-free version or epoch, all parts but the architecture
non-empty), and these parts are returned; a missing epoch is 0. -/
theorem C35_nevra (text n v r a : Str) (e : Nat) : parseNevra text = .ok n e v r a ↔
    ∃ ev, text = n ++ '-' :: ev ++ '-' :: (r ++ '.' :: a) ∧
      '-' ∉ ev ∧ '-' ∉ r ∧ '-' ∉ a ∧ '.' ∉ a ∧ n ≠ [] ∧ v ≠ [] ∧ r ≠ [] ∧
      ((ev = v ∧ ':' ∉ v ∧ e = 0) ∨ ∃ es, ev = es ++ ':' :: v ∧ ':' ∉ es ∧ EpochText es e) := by
  constructor
  · intro h
    obtain ⟨n', ev, r', a', rfl, hp⟩ := parseNevra_parts (text := text) (by rw [h]; exact fun e => by cases e)
    rw [parseNevra_eq hp] at h
    split at h
    · next hc =>
      cases h
      exact ⟨_, rfl, hp.1, hp.2, hp.3, hp.4, hp.5, hp.6, hp.7, Or.inl ⟨rfl, strchrI_none.1 hc, rfl⟩⟩
    · next i hc =>
      obtain ⟨es, v', hev, hes, hi⟩ := strchrI_some.1 hc
      split at h
      · cases h
      · next hz =>
        have ht : ev.take i = es := by rw [hev, ← hi, List.take_left]
        have hd : ev.drop (i + 1) = v' := by rw [hev, ← hi, drop_at]
        rw [ht, hd] at h
        split at h
        · cases h
        · next e' he =>
          cases h
          refine ⟨ev, rfl, hp.1, hp.2, hp.3, hp.4, hp.5, ?_, hp.7, Or.inr ⟨es, hev, hes, ?_⟩⟩
          · rintro rfl
            apply hz; left; rw [hev, ← hi]; simp
          · exact (parseEpoch_iff (fun hm => hp.1 (by rw [hev]; simp [hm])) _).1 he
  · rintro ⟨ev, rfl, h1, h2, h3, h4, h5, h6, h7, (⟨rfl, hc, rfl⟩ | ⟨es, rfl, hes, het⟩)⟩
    · rw [show n ++ '-' :: ev ++ '-' :: (r ++ '.' :: a) = nevraText n ev r a from rfl, parseNevra_eq ⟨h1, h2, h3, h4, h5, h6, h7⟩,
        strchrI_none.2 hc]
    · rw [show n ++ '-' :: (es ++ ':' :: v) ++ '-' :: (r ++ '.' :: a) = nevraText n (es ++ ':' :: v) r a from rfl,
        parseNevra_eq ⟨h1, h2, h3, h4, h5, by simp, h7⟩, strchrI_some.2 ⟨es, v, rfl, hes, rfl⟩]
      have hes0 : es ≠ [] := by
        obtain ⟨ws, sg, ds, hes', -, -, hds, -⟩ := het
        rintro rfl
        have := congrArg List.length hes'
        simp only [List.length_nil, List.length_append] at this
        exact hds (List.eq_nil_of_length_eq_zero (by omega))
      have hl1 : es.length ≠ 0 := by simpa using hes0
      have hl2 : v.length ≠ 0 := by simpa using h6
      simp only
      rw [if_neg (by rw [List.length_append, List.length_cons]; omega), List.take_left, drop_at]
      rw [(parseEpoch_iff (fun hm => h1 (by simp [hm])) e).2 het]

/-- C35: parsing inverts the usual printing, for every 32-bit epoch or none. -/
theorem C35_nevra_print (n v r a : Str) (e : Option Nat) (he : ∀ x, e = some x → x < 2 ^ 32) (hn : n ≠ []) (hv0 : v ≠ [])
    (hr0 : r ≠ []) (hv : '-' ∉ v ∧ ':' ∉ v) (hr : '-' ∉ r) (ha : '-' ∉ a ∧ '.' ∉ a) :
    parseNevra (printNevra n e v r a) = .ok n (e.getD 0) v r a := by
  rw [C35_nevra]
  cases e with
  | none => exact ⟨v, rfl, hv.1, hr, ha.1, ha.2, hn, hv0, hr0, Or.inl ⟨rfl, hv.2, rfl⟩⟩
  | some x =>
    obtain ⟨h1, h2, h3⟩ := natDec_spec x
    have hd : '-' ∉ natDec x := fun hm => by have := h1 _ hm; revert this; decide
    have hc : ':' ∉ natDec x := fun hm => by have := h1 _ hm; revert this; decide
    refine ⟨natDec x ++ ':' :: v, by simp [printNevra], by simp [hd, hv.1], hr, ha.1, ha.2, hn, hv0, hr0,
      Or.inr ⟨natDec x, rfl, hc, [], [], natDec x, rfl, by simp, Or.inl rfl, h2, h1, h3, he x rfl⟩⟩

/-- C35: a text that is not accepted leaves the outputs as they were, unless it has an epoch part that is not a number
below 2^32; then pointers to freed memory are left in the outputs (`failDangling`). -/
theorem C35_nevra_dangling (text : Str) : parseNevra text = .failDangling ↔
    ∃ n es v r a, text = n ++ '-' :: (es ++ ':' :: v) ++ '-' :: (r ++ '.' :: a) ∧ '-' ∉ es ∧ ':' ∉ es ∧ '-' ∉ v ∧ '-' ∉ r ∧
      '-' ∉ a ∧ '.' ∉ a ∧ n ≠ [] ∧ es ≠ [] ∧ v ≠ [] ∧ r ≠ [] ∧ ¬ ∃ e, EpochText es e := by
  constructor
  · intro h
    obtain ⟨n, ev, r, a, rfl, hp⟩ := parseNevra_parts (text := text) (by rw [h]; exact fun e => by cases e)
    rw [parseNevra_eq hp] at h
    split at h
    · cases h
    · next i hc =>
      obtain ⟨es, v, hev, hes, hi⟩ := strchrI_some.1 hc
      split at h
      · cases h
      · next hz =>
        have ht : ev.take i = es := by rw [hev, ← hi, List.take_left]
        rw [ht] at h
        split at h
        · next he =>
          have hdash := hp.1
          rw [hev] at hdash
          simp only [List.mem_append, List.mem_cons, not_or] at hdash
          rw [not_or] at hz
          refine ⟨n, es, v, r, a, by rw [← hev]; rfl, hdash.1, hes, hdash.2.2, hp.2, hp.3, hp.4, hp.5, ?_, ?_, hp.7, ?_⟩
          · rintro rfl; exact hz.2 hi.symm
          · rintro rfl; apply hz.1; rw [hev, ← hi]; simp
          · rintro ⟨e, het⟩
            rw [(parseEpoch_iff hdash.1 e).2 het] at he
            cases he
        · cases h
  · rintro ⟨n, es, v, r, a, rfl, h1, h2, h3, h4, h5, h6, h7, h8, h9, h10, h11⟩
    rw [show n ++ '-' :: (es ++ ':' :: v) ++ '-' :: (r ++ '.' :: a) = nevraText n (es ++ ':' :: v) r a from rfl,
      parseNevra_eq ⟨by simp [h1, h3], h4, h5, h6, h7, by simp, h10⟩, strchrI_some.2 ⟨es, v, rfl, h2, rfl⟩]
    have hl1 : es.length ≠ 0 := by simpa using h8
    have hl2 : v.length ≠ 0 := by simpa using h9
    simp only
    rw [if_neg (by rw [List.length_append, List.length_cons]; omega), List.take_left]
    cases he : parseEpoch es with
    | none => rfl
    | some e => exact absurd ⟨e, (parseEpoch_iff h1 e).1 he⟩ h11

/-- C35: not every refusal is clean. -/
theorem C35_not_clean : parseNevra c!"a-x:1-2.i686" = .failDangling := by decide +kernel

example : parseNevra c!"coreutils-2:8.15-6.fc17.x86_64" = .ok c!"coreutils" 2 c!"8.15" c!"6.fc17" c!"x86_64" := by
  decide +kernel
example : parseNevra c!"coreutils-8.15-6.fc17.x86_64" = .ok c!"coreutils" 0 c!"8.15" c!"6.fc17" c!"x86_64" := by
  decide +kernel

end Satyr.Rpm
