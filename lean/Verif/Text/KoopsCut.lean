import Verif.CStr.Cut
import Mathlib.Data.List.Infix
import Verif.Text.KoopsSafe
import Verif.Text.KoopsTrace
/-!
# C141: kernel oopses that were cut off
-/
namespace Satyr.Text.Koops
open Satyr.CStr Satyr.Frames Satyr.Koops

variable {s T u : Str}

theorem skipBlanks_cut (hs : EndsLine s) (hu : In s u) : Same (fun a b => In s a ∧ b = a ++ T) (skipBlanks u) (skipBlanks (u ++ T)) := by
  unfold skipBlanks
  refine (span_cut hu ⟨'\n', hu.newline hs, by decide⟩).bind ?_
  rintro ⟨n, r⟩ ⟨-, -⟩ ⟨rfl, hr, rfl⟩
  exact .ok ⟨hr, rfl⟩

theorem closeIf_cut (hs : EndsLine s) (hu : In s u) (b : Bool) {c : Char} (hc : c ≠ '\n') :
    Same (Pair s T) (closeIf b c u) (closeIf b c (u ++ T)) := by
  unfold closeIf
  cases b with
  | true => exact skipChar_cut hs hu hc
  | false => exact .ok ⟨rfl, hu, rfl⟩

/-- The same address, and the same position if it was complete. -/
def AddrCut (s T : Str) (a b : Nat × Option Str) : Prop := a.1 = b.1 ∧ ((a.2 = none ∧ b.2 = none) ∨ ∃ r, a.2 = some r ∧ b.2 = some (r ++ T) ∧ In s r)

theorem address_cut (hs : EndsLine s) (hu : In s u) : Same (AddrCut s T) (parseAddress u) (parseAddress (u ++ T)) := by
  unfold parseAddress
  refine (skipChar_cut hs hu (by decide)).bind ?_
  rintro ⟨b, r⟩ ⟨-, -⟩ ⟨rfl, hr, rfl⟩
  refine Same.ite (fun _ => .ok ⟨rfl, .inl ⟨rfl, rfl⟩⟩) fun _ => (skipChar_cut hs hr (by decide)).bind ?_
  rintro ⟨g, r⟩ ⟨-, -⟩ ⟨rfl, hr, rfl⟩
  refine (hex_cut hs hr).bind ?_
  rintro ⟨n, v, r⟩ ⟨-, -, -⟩ ⟨rfl, rfl, hr, rfl⟩
  refine Same.ite (fun _ => .ok ⟨rfl, .inl ⟨rfl, rfl⟩⟩) fun _ => (closeIf_cut hs hr g (by decide)).bind ?_
  rintro ⟨b, r⟩ ⟨-, -⟩ ⟨rfl, hr, rfl⟩
  refine Same.ite (fun _ => .ok ⟨rfl, .inl ⟨rfl, rfl⟩⟩) fun _ => (skipChar_cut hs hr (by decide)).bind ?_
  rintro ⟨b, r⟩ ⟨-, -⟩ ⟨rfl, hr, rfl⟩
  refine .ok ⟨rfl, ?_⟩
  cases b with
  | true => exact .inr ⟨r, rfl, rfl, hr⟩
  | false => exact .inl ⟨rfl, rfl⟩

theorem moduleName_cut (hs : EndsLine s) (hu : In s u) : Same (OptPair s T) (parseModuleName u) (parseModuleName (u ++ T)) := by
  unfold parseModuleName
  refine (skipChar_cut hs hu (by decide)).bind ?_
  rintro ⟨b, r⟩ ⟨-, -⟩ ⟨rfl, hr, rfl⟩
  refine Same.ite (fun _ => .ok (.inl ⟨rfl, rfl⟩)) fun _ => (parseCspan_cut hr ⟨'\n', hr.newline hs, by decide⟩).bind ?_
  rintro ⟨n, r⟩ ⟨-, -⟩ ⟨rfl, hr, rfl⟩
  cases n with
  | none => exact .ok (.inl ⟨rfl, rfl⟩)
  | some n =>
    refine (skipChar_cut hs hr (by decide)).bind ?_
    rintro ⟨b, r⟩ ⟨-, -⟩ ⟨rfl, hr, rfl⟩
    cases b with
    | true => exact .ok (.inr ⟨n, r, rfl, rfl, hr⟩)
    | false => exact .ok (.inl ⟨rfl, rfl⟩)

theorem optModule_cut (hs : EndsLine s) (hu : In s u) : Same (Pair s T) (optModule u) (optModule (u ++ T)) := by
  unfold optModule
  refine (moduleName_cut hs hu).bind ?_
  rintro _ _ (⟨rfl, rfl⟩ | ⟨n, r, rfl, rfl, hr⟩)
  · exact .ok ⟨rfl, hu, rfl⟩
  · exact .ok ⟨rfl, hr, rfl⟩

theorem functionTail_cut (hs : EndsLine s) (hu : In s u) (n : Str) (p : Bool) :
    Same (OptPair s T) (functionTail n p u) (functionTail n p (u ++ T)) := by
  unfold functionTail
  refine (skipChar_cut hs hu (by decide)).bind ?_
  rintro ⟨b, r⟩ ⟨-, -⟩ ⟨rfl, hr, rfl⟩
  refine Same.ite (fun _ => .ok (.inl ⟨rfl, rfl⟩)) fun _ => (hex0x_cut hs hr).bind ?_
  rintro ⟨k, v, r⟩ ⟨-, -, -⟩ ⟨rfl, rfl, hr, rfl⟩
  refine (skipChar_cut hs hr (by decide)).bind ?_
  rintro ⟨b, r⟩ ⟨-, -⟩ ⟨rfl, hr, rfl⟩
  refine Same.ite (fun _ => .ok (.inl ⟨rfl, rfl⟩)) fun _ => (hex0x_cut hs hr).bind ?_
  rintro ⟨k', v', r⟩ ⟨-, -, -⟩ ⟨rfl, rfl, hr, rfl⟩
  refine (skipBlanks_cut hs hr).bind ?_
  rintro r _ ⟨hr, rfl⟩
  refine (optModule_cut hs hr).bind ?_
  rintro ⟨m, r⟩ ⟨-, -⟩ ⟨rfl, hr, rfl⟩
  refine (skipBlanks_cut hs hr).bind ?_
  rintro r _ ⟨hr, rfl⟩
  refine (closeIf_cut hs hr p (by decide)).bind ?_
  rintro ⟨b, r⟩ ⟨-, -⟩ ⟨rfl, hr, rfl⟩
  cases b with
  | true => exact .ok (.inr ⟨_, r, rfl, rfl, hr⟩)
  | false => exact .ok (.inl ⟨rfl, rfl⟩)

theorem function_cut (hs : EndsLine s) (hu : In s u) : Same (OptPair s T) (parseFunction u) (parseFunction (u ++ T)) := by
  unfold parseFunction
  refine (skipChar_cut hs hu (by decide)).bind ?_
  rintro ⟨p, r⟩ ⟨-, -⟩ ⟨rfl, hr, rfl⟩
  refine (hex0x_cut hs hr).bind ?_
  rintro ⟨k, v, r'⟩ ⟨-, -, -⟩ ⟨rfl, rfl, hr', rfl⟩
  refine Same.ite (fun _ => (closeIf_cut hs hr' p (by decide)).bind ?_) fun _ => (parseCspan_cut hr ⟨'\n', hr.newline hs, by decide⟩).bind ?_
  · rintro ⟨b, r⟩ ⟨-, -⟩ ⟨rfl, hr, rfl⟩
    cases b with
    | true => exact .ok (.inr ⟨_, r, rfl, rfl, hr⟩)
    | false => exact .ok (.inl ⟨rfl, rfl⟩)
  · rintro ⟨n, r⟩ ⟨-, -⟩ ⟨rfl, hr, rfl⟩
    cases n with
    | none => exact .ok (.inl ⟨rfl, rfl⟩)
    | some n => exact functionTail_cut hs hr n p

theorem lineEnd_cut (hu : In s u) : Same (fun a b => (a = none ∧ b = none) ∨ ∃ r, a = some r ∧ b = some (r ++ T) ∧ r <:+ s) (lineEnd u) (lineEnd (u ++ T)) := by
  unfold lineEnd
  rw [peek_in hu]
  refine Same.ite (fun _ => .ok (.inr ⟨u, rfl, rfl, hu.1⟩)) fun _ => (skipChar_end hu '\n').bind ?_
  rintro ⟨b, r⟩ ⟨-, -⟩ ⟨rfl, hr, rfl⟩
  cases b with
  | true => exact .ok (.inr ⟨r, rfl, rfl, hr⟩)
  | false => exact .ok (.inl ⟨rfl, rfl⟩)

theorem ppc_cut (hs : EndsLine s) (hu : In s u) : Same (OptEnd s T) (parsePpc u) (parsePpc (u ++ T)) := by
  unfold parsePpc
  refine (skipBlanks_cut hs hu).bind ?_
  rintro r _ ⟨hr, rfl⟩
  refine (address_cut hs hr).bind ?_
  rintro ⟨a, o⟩ ⟨-, o'⟩ ⟨rfl, ⟨rfl, rfl⟩ | ⟨r, rfl, rfl, hr⟩⟩
  · exact .ok (.inl ⟨rfl, rfl⟩)
  refine (skipBlanks_cut hs hr).bind ?_
  rintro r _ ⟨hr, rfl⟩
  refine (address_cut hs hr).bind ?_
  rintro ⟨a, o⟩ ⟨-, o'⟩ ⟨rfl, ⟨rfl, rfl⟩ | ⟨r, rfl, rfl, hr⟩⟩
  · exact .ok (.inl ⟨rfl, rfl⟩)
  refine (skipBlanks_cut hs hr).bind ?_
  rintro r _ ⟨hr, rfl⟩
  refine (skipChar_cut hs hr (by decide)).bind ?_
  rintro ⟨b, r⟩ ⟨-, -⟩ ⟨rfl, hr, rfl⟩
  refine (function_cut hs hr).bind ?_
  rintro _ _ (⟨rfl, rfl⟩ | ⟨f, r, rfl, rfl, hr⟩)
  · exact .ok (.inl ⟨rfl, rfl⟩)
  refine (skipBlanks_cut hs hr).bind ?_
  rintro r _ ⟨hr, rfl⟩
  obtain ⟨e, hr⟩ := skipString_cut (T := T) hs hr c!"(unreliable)" (by decide)
  dsimp only
  rw [e]
  refine (skipBlanks_cut hs hr).bind ?_
  rintro r _ ⟨hr, rfl⟩
  refine (lineEnd_cut hr).bind ?_
  rintro _ _ (⟨rfl, rfl⟩ | ⟨r, rfl, rfl, hr⟩)
  · exact .ok (.inl ⟨rfl, rfl⟩)
  · exact .ok (.inr ⟨_, r, rfl, rfl, hr⟩)

theorem armFrom_cut (hs : EndsLine s) (hu : In s u) (k : KoopsFrame) : Same (OptEnd s T) (armFrom k u) (armFrom k (u ++ T)) := by
  unfold armFrom
  refine (skipBlanks_cut hs hu).bind ?_
  rintro r _ ⟨hr, rfl⟩
  obtain ⟨e, hr⟩ := skipString_cut (T := T) hs hr c!"from" (by decide)
  rw [e]
  refine Same.ite (fun _ => .ok (.inl ⟨rfl, rfl⟩)) fun _ => (skipBlanks_cut hs hr).bind ?_
  rintro r _ ⟨hr, rfl⟩
  refine (address_cut hs hr).bind ?_
  rintro ⟨a, o⟩ ⟨-, o'⟩ ⟨rfl, ⟨rfl, rfl⟩ | ⟨r, rfl, rfl, hr⟩⟩
  · exact .ok (.inl ⟨rfl, rfl⟩)
  refine (skipBlanks_cut hs hr).bind ?_
  rintro r _ ⟨hr, rfl⟩
  refine (function_cut hs hr).bind ?_
  rintro _ _ (⟨rfl, rfl⟩ | ⟨f, r, rfl, rfl, hr⟩)
  · exact .ok (.inl ⟨rfl, rfl⟩)
  · exact .ok (.inr ⟨_, r, rfl, rfl, hr.1⟩)

theorem arm_cut (hs : EndsLine s) (hu : In s u) : Same (OptEnd s T) (parseArm u) (parseArm (u ++ T)) := by
  unfold parseArm
  refine (skipBlanks_cut hs hu).bind ?_
  rintro r _ ⟨hr, rfl⟩
  refine (address_cut hs hr).bind ?_
  rintro ⟨a, o⟩ ⟨-, o'⟩ ⟨rfl, ⟨rfl, rfl⟩ | ⟨r, rfl, rfl, hr⟩⟩
  · exact .ok (.inl ⟨rfl, rfl⟩)
  refine (skipBlanks_cut hs hr).bind ?_
  rintro r _ ⟨hr, rfl⟩
  refine (skipChar_cut hs hr (by decide)).bind ?_
  rintro ⟨q, r⟩ ⟨-, -⟩ ⟨rfl, hr, rfl⟩
  refine (skipBlanks_cut hs hr).bind ?_
  rintro r _ ⟨hr, rfl⟩
  refine (skipChar_cut hs hr (by decide)).bind ?_
  rintro ⟨b, r⟩ ⟨-, -⟩ ⟨rfl, hr, rfl⟩
  refine Same.ite (fun _ => .ok (.inl ⟨rfl, rfl⟩)) fun _ => (parseCspan_cut hr ⟨'\n', hr.newline hs, by decide⟩).bind ?_
  rintro ⟨n, r⟩ ⟨-, -⟩ ⟨rfl, hr, rfl⟩
  cases n with
  | none => exact .ok (.inl ⟨rfl, rfl⟩)
  | some n =>
    refine (skipChar_cut hs hr (by decide)).bind ?_
    rintro ⟨b, r⟩ ⟨-, -⟩ ⟨rfl, hr, rfl⟩
    exact Same.ite (fun _ => .ok (.inl ⟨rfl, rfl⟩)) fun _ => armFrom_cut hs hr _

theorem generalFrom_cut (hs : EndsLine s) (hu : In s u) : Same
    (fun a b => (a = none ∧ b = none) ∨ ∃ x f r, a = some (x, f, r) ∧ b = some (x, f, r ++ T) ∧ In s r) (generalFrom u) (generalFrom (u ++ T)) := by
  unfold generalFrom
  obtain ⟨e, hr⟩ := skipString_cut (T := T) hs hu c!"from" (by decide)
  rw [e]
  refine Same.ite (fun _ => .ok (.inr ⟨_, _, u, rfl, rfl, hu⟩)) fun _ => (skipBlanks_cut hs hr).bind ?_
  rintro r _ ⟨hr, rfl⟩
  refine (address_cut hs hr).bind ?_
  rintro ⟨a, o⟩ ⟨-, o'⟩ ⟨rfl, ⟨rfl, rfl⟩ | ⟨r, rfl, rfl, hr⟩⟩
  · exact .ok (.inl ⟨rfl, rfl⟩)
  refine (skipBlanks_cut hs hr).bind ?_
  rintro r _ ⟨hr, rfl⟩
  refine (function_cut hs hr).bind ?_
  rintro _ _ (⟨rfl, rfl⟩ | ⟨f, r, rfl, rfl, hr⟩)
  · exact .ok (.inl ⟨rfl, rfl⟩)
  refine (skipBlanks_cut hs hr).bind ?_
  rintro r _ ⟨hr, rfl⟩
  exact .ok (.inr ⟨_, _, r, rfl, rfl, hr⟩)

theorem lateModule_cut (hs : EndsLine s) (hu : In s u) (m : Option Str) : Same (Pair s T) (lateModule m u) (lateModule m (u ++ T)) := by
  unfold lateModule
  refine Same.ite (fun _ => .ok ⟨rfl, hu, rfl⟩) fun _ => (optModule_cut hs hu).bind ?_
  rintro ⟨o, r⟩ ⟨-, -⟩ ⟨rfl, hr, rfl⟩
  refine Same.ite (fun _ => (skipBlanks_cut hs hr).bind ?_) fun _ => .ok ⟨rfl, hr, rfl⟩
  rintro r _ ⟨hr, rfl⟩
  exact .ok ⟨rfl, hr, rfl⟩

theorem generalEnd_cut (hs : EndsLine s) (hu : In s u) (p : Bool) :
    Same (fun a b => (a = none ∧ b = none) ∨ ∃ r, a = some r ∧ b = some (r ++ T) ∧ r <:+ s) (generalEnd p u) (generalEnd p (u ++ T)) := by
  unfold generalEnd
  refine Same.ite (fun _ => (skipChar_cut hs hu (by decide)).bind ?_) fun _ => lineEnd_cut hu
  rintro ⟨b, r⟩ ⟨-, -⟩ ⟨rfl, hr, rfl⟩
  refine Same.ite (fun _ => .ok (.inl ⟨rfl, rfl⟩)) fun _ => (skipBlanks_cut hs hr).bind ?_
  rintro r _ ⟨hr, rfl⟩
  exact lineEnd_cut hr

theorem generalBody_cut (hs : EndsLine s) (hu : In s u) (p : Bool) (a : Nat) : Same (OptEnd s T) (generalBody p a u) (generalBody p a (u ++ T)) := by
  unfold generalBody
  refine (skipBlanks_cut hs hu).bind ?_
  rintro r _ ⟨hr, rfl⟩
  refine (skipChar_cut hs hr (by decide)).bind ?_
  rintro ⟨q, r⟩ ⟨-, -⟩ ⟨rfl, hr, rfl⟩
  refine (skipBlanks_cut hs hr).bind ?_
  rintro r _ ⟨hr, rfl⟩
  refine (function_cut hs hr).bind ?_
  rintro _ _ (⟨rfl, rfl⟩ | ⟨f, r, rfl, rfl, hr⟩)
  · exact .ok (.inl ⟨rfl, rfl⟩)
  refine (skipBlanks_cut hs hr).bind ?_
  rintro r _ ⟨hr, rfl⟩
  refine (generalFrom_cut hs hr).bind ?_
  rintro _ _ (⟨rfl, rfl⟩ | ⟨x, g, r, rfl, rfl, hr⟩)
  · exact .ok (.inl ⟨rfl, rfl⟩)
  refine (lateModule_cut hs hr _).bind ?_
  rintro ⟨m, r⟩ ⟨-, -⟩ ⟨rfl, hr, rfl⟩
  refine (generalEnd_cut hs hr p).bind ?_
  rintro _ _ (⟨rfl, rfl⟩ | ⟨r, rfl, rfl, hr⟩)
  · exact .ok (.inl ⟨rfl, rfl⟩)
  · exact .ok (.inr ⟨_, r, rfl, rfl, hr⟩)

theorem general_cut (hs : EndsLine s) (hu : In s u) : Same (OptEnd s T) (parseGeneral u) (parseGeneral (u ++ T)) := by
  unfold parseGeneral
  refine (skipBlanks_cut hs hu).bind ?_
  rintro r _ ⟨hr, rfl⟩
  refine (skipChar_cut hs hr (by decide)).bind ?_
  rintro ⟨p, r⟩ ⟨-, -⟩ ⟨rfl, hr, rfl⟩
  refine (address_cut hs hr).bind ?_
  rintro ⟨a, o⟩ ⟨-, o'⟩ ⟨rfl, ⟨rfl, rfl⟩ | ⟨r', rfl, rfl, hr'⟩⟩
  · refine (hex0x_cut hs hr).bind ?_
    rintro ⟨k, v, r'⟩ ⟨-, -, -⟩ ⟨rfl, rfl, hr', rfl⟩
    refine Same.ite (fun _ => (lineEnd_cut hr').bind ?_) fun _ => generalBody_cut hs hr p a
    rintro _ _ (⟨rfl, rfl⟩ | ⟨r, rfl, rfl, hr⟩)
    · exact .ok (.inl ⟨rfl, rfl⟩)
    · exact .ok (.inr ⟨_, r, rfl, rfl, hr⟩)
  · exact generalBody_cut hs hr' p a

/-- A frame is read in the same way if the text was cut off after the line, or later. -/
theorem frame_cut (hs : EndsLine s) (hu : In s u) : Same (OptEnd s T) (parseFrame u) (parseFrame (u ++ T)) := by
  unfold parseFrame
  refine (ppc_cut hs hu).bind ?_
  rintro _ _ (⟨rfl, rfl⟩ | ⟨k, r, rfl, rfl, hr⟩)
  · refine (arm_cut hs hu).bind ?_
    rintro _ _ (⟨rfl, rfl⟩ | ⟨k, r, rfl, rfl, hr⟩)
    · exact general_cut hs hu
    · exact .ok (.inr ⟨k, r, rfl, rfl, hr⟩)
  · exact .ok (.inr ⟨k, r, rfl, rfl, hr⟩)

/-- The text does not end within the brackets of a timestamp. -/
def NoOpen (s : Str) : Prop := ∀ a w, s = a ++ '[' :: w → ∃ c ∈ w, c ∉ c!" \t\r\n\x0b\x0c"

theorem timestamp_cut (hs : EndsLine s) (ho : NoOpen s) (hu : In s u) : Same (Pair s T) (skipTimestamp u) (skipTimestamp (u ++ T)) := by
  unfold skipTimestamp
  by_cases hp : peek u = '['
  · obtain ⟨v, rfl⟩ : ∃ v, u = '[' :: v := by
      cases u with
      | nil => exact absurd hp (by decide)
      | cons c v => exact ⟨v, by rw [show c = '[' from hp]⟩
    have hv : ∃ c ∈ v, c ∉ c!" \t\r\n\x0b\x0c" := by
      obtain ⟨a, e⟩ := hu.1
      exact ho a v e.symm
    have hne : v ≠ [] := by rintro rfl; simp at hv
    have hv' := hu.suffix (List.suffix_cons _ _) hne
    rw [List.cons_append, skipChar_cons (by decide), skipChar_cons (by decide), Out.bind_ok, Out.bind_ok]
    dsimp only
    rw [if_neg (by simp), if_neg (by simp)]
    refine (span_cut hv' hv).bind ?_
    rintro ⟨n, r⟩ ⟨-, -⟩ ⟨rfl, hr, rfl⟩
    refine (span_cut hr ⟨'\n', hr.newline hs, by decide⟩).bind ?_
    rintro ⟨n, r⟩ ⟨-, -⟩ ⟨rfl, hr, rfl⟩
    refine Same.ite (fun _ => .ok ⟨rfl, hu, rfl⟩) fun _ => (skipChar_cut hs hr (by decide)).bind ?_
    rintro ⟨b, r⟩ ⟨-, -⟩ ⟨rfl, hr, rfl⟩
    refine Same.ite (fun _ => .ok ⟨rfl, hu, rfl⟩) fun _ => (span_cut hr ⟨'\n', hr.newline hs, by decide⟩).bind ?_
    rintro ⟨n, r⟩ ⟨-, -⟩ ⟨rfl, hr, rfl⟩
    refine Same.ite (fun _ => .ok ⟨rfl, hu, rfl⟩) fun _ => (skipChar_cut hs hr (by decide)).bind ?_
    rintro ⟨b, r⟩ ⟨-, -⟩ ⟨rfl, hr, rfl⟩
    cases b with
    | true => exact .ok ⟨rfl, hr, rfl⟩
    | false => exact .ok ⟨rfl, hu, rfl⟩
  · have hp' : peek (u ++ T) ≠ '[' := by rw [peek_in hu]; exact hp
    rw [skipChar_not (by decide) hp, skipChar_not (by decide) hp']
    exact .ok ⟨rfl, hu, rfl⟩

/-- The text does not end within the part of an instruction pointer that is skipped. -/
def NoRip (s : Str) : Prop := ∀ a b w, s = a ++ (c!"RIP:" ++ (b ++ w)) → b ≠ [] → Blank b → peek w ∉ c!" \t" → ∃ c ∈ w, c ∈ c!" \t"

theorem rip_cut (hs : EndsLine s) (hi : NoRip s) (hu : In s (c!"RIP:" ++ u)) : Same (OptEnd s T) (ripFrame u) (ripFrame (u ++ T)) := by
  have hu' : In s u := hu.suffix (List.suffix_append _ _) (by
    rintro rfl
    exact absurd (hu.newline hs) (by decide))
  unfold ripFrame
  obtain ⟨⟨n, r⟩, ⟨-, -⟩, e1, e2, rfl, hr, rfl⟩ := span_cut (T := T) hu' ⟨'\n', hu'.newline hs, by decide⟩ (set := c!" \t")
  rw [e1, e2, Out.bind_ok, Out.bind_ok]
  refine Same.ite (fun _ => .ok (.inl ⟨rfl, rfl⟩)) fun hn => ?_
  have hb : ∃ c ∈ r, c ∈ c!" \t" := by
    obtain ⟨b, r', e, hb, hr', h3, -⟩ := C27_span u c!" \t"
    rw [h3] at e1
    injection e1 with e1
    injection e1 with e3 e4
    subst e4
    dsimp only at hn
    obtain ⟨a, ha⟩ := hu.1
    refine hi a b r' (by rw [← ha, e]) (by rintro rfl; exact hn e3.symm) hb ?_
    cases r' with
    | nil => decide
    | cons c t => exact hr' c t rfl
  refine (cspan_cut hr hb).bind ?_
  rintro ⟨n, r⟩ ⟨-, -⟩ ⟨rfl, hr, rfl⟩
  refine Same.ite (fun _ => .ok (.inl ⟨rfl, rfl⟩)) fun _ => (span_cut hr ⟨'\n', hr.newline hs, by decide⟩).bind ?_
  rintro ⟨n, r⟩ ⟨-, -⟩ ⟨rfl, hr, rfl⟩
  exact Same.ite (fun _ => .ok (.inl ⟨rfl, rfl⟩)) fun _ => frame_cut hs hr

theorem eip_cut (hs : EndsLine s) (hu : In s u) : Same (OptPair s T) (eipFrame u) (eipFrame (u ++ T)) := by
  unfold eipFrame
  refine (span_cut hu ⟨'\n', hu.newline hs, by decide⟩).bind ?_
  rintro ⟨n, r⟩ ⟨-, -⟩ ⟨rfl, hr, rfl⟩
  refine Same.ite (fun _ => .ok (.inl ⟨rfl, rfl⟩)) fun _ => (address_cut hs hr).bind ?_
  rintro ⟨a, o⟩ ⟨-, o'⟩ ⟨rfl, ⟨rfl, rfl⟩ | ⟨r, rfl, rfl, hr⟩⟩
  · exact .ok (.inl ⟨rfl, rfl⟩)
  refine (skipBlanks_cut hs hr).bind ?_
  rintro r _ ⟨hr, rfl⟩
  refine (skipChar_cut hs hr (by decide)).bind ?_
  rintro ⟨q, r⟩ ⟨-, -⟩ ⟨rfl, hr, rfl⟩
  refine (skipBlanks_cut hs hr).bind ?_
  rintro r _ ⟨hr, rfl⟩
  refine (function_cut hs hr).bind ?_
  rintro _ _ (⟨rfl, rfl⟩ | ⟨f, r, rfl, rfl, hr⟩)
  · exact .ok (.inl ⟨rfl, rfl⟩)
  · exact .ok (.inr ⟨_, r, rfl, rfl, hr⟩)

theorem ipStart_cut (hs : EndsLine s) (hi : NoRip s) (hu : In s u) : Same (OptEnd s T) (ipStart u) (ipStart (u ++ T)) := by
  unfold ipStart
  obtain ⟨e1, h1⟩ := skipString_cut (T := T) hs hu c!"RIP:" (by decide)
  obtain ⟨e2, h2⟩ := skipString_cut (T := T) hs hu c!"EIP:" (by decide)
  rw [e1, e2]
  refine Same.ite (fun hn => ?_) fun _ => Same.ite (fun _ => ?_) fun _ => .ok (.inl ⟨rfl, rfl⟩)
  · refine rip_cut hs hi ?_
    rcases skipString_cases u c!"RIP:" with ⟨b, hb, he⟩ | he
    · rw [he]
      exact hb ▸ hu
    · rw [he] at hn
      exact absurd rfl hn
  · exact (eip_cut hs h2).mono fun _ _ h => h.toEnd

theorem cspan_nil (set : Str) : skipCharCspan [] set = .ok (0, []) := rfl

/-- The same frame, and then the same position or the end of the shorter text. -/
theorem ip_cut (hs : EndsLine s) (hi : NoRip s) (hu : In s u) :
    Same (fun a b => (a = none ∧ b = none) ∨ ∃ k r r', a = some (k, r) ∧ b = some (k, r') ∧ r <:+ s ∧ (r' = r ++ T ∨ r = [] ∧ r' <:+ T))
      (parseIp u) (parseIp (u ++ T)) := by
  unfold parseIp
  refine (skipBlanks_cut hs hu).bind ?_
  rintro r _ ⟨hr, rfl⟩
  refine (ipStart_cut hs hi hr).bind ?_
  rintro _ _ (⟨rfl, rfl⟩ | ⟨k, r, rfl, rfl, hr⟩)
  · exact .ok (.inl ⟨rfl, rfl⟩)
  by_cases hne : r = []
  · subst hne
    obtain ⟨⟨n, r'⟩, e, hr'⟩ := rest_cspan T c!"\n"
    refine ⟨_, _, rfl, ?_, .inr ⟨k, [], r', rfl, rfl, hr, .inr ⟨rfl, ?_⟩⟩⟩
    · show (skipCharCspan ([] ++ T) c!"\n" >>= _) = _
      rw [List.nil_append, e]
      rfl
    · obtain ⟨u, hu⟩ := hr'.1
      exact ⟨u, hu.symm⟩
  · refine (cspan_cut ⟨hr, hne⟩ ⟨'\n', In.newline hs ⟨hr, hne⟩, by decide⟩).bind ?_
    rintro ⟨n, r⟩ ⟨-, -⟩ ⟨rfl, hr, rfl⟩
    exact .ok (.inr ⟨k, r, _, rfl, rfl, hr.1, .inl rfl⟩)

theorem altEnd_cut (hs : EndsLine s) (hu : In s u) : Same (Pair s T) (altEnd u) (altEnd (u ++ T)) := by
  unfold altEnd
  refine (skipBlanks_cut hs hu).bind ?_
  rintro r _ ⟨hr, rfl⟩
  refine (span_cut hr ⟨'\n', hr.newline hs, by decide⟩).bind ?_
  rintro ⟨n, r⟩ ⟨-, -⟩ ⟨rfl, hr, rfl⟩
  refine Same.ite (fun _ => .ok ⟨rfl, hu, rfl⟩) fun _ => ?_
  obtain ⟨e, hr⟩ := skipString_cut (T := T) hs hr c!"EO" (by decide)
  dsimp only
  rw [e]
  refine Same.ite (fun _ => .ok ⟨rfl, hu, rfl⟩) fun _ => (span_cut hr ⟨'\n', hr.newline hs, by decide⟩).bind ?_
  rintro ⟨n, r⟩ ⟨-, -⟩ ⟨rfl, hr, rfl⟩
  refine Same.ite (fun _ => .ok ⟨rfl, hu, rfl⟩) fun _ => (span_cut hr ⟨'\n', hr.newline hs, by decide⟩).bind ?_
  rintro ⟨n, r⟩ ⟨-, -⟩ ⟨rfl, hr, rfl⟩
  refine .ok ?_
  dsimp only
  by_cases hn : n = 0
  · rw [if_pos hn, if_pos hn]; exact ⟨rfl, hu, rfl⟩
  · rw [if_neg hn, if_neg hn]; exact ⟨rfl, hr, rfl⟩

theorem altStart_cut (hs : EndsLine s) (hu : In s u) : Same (Pair s T) (altStart u) (altStart (u ++ T)) := by
  unfold altStart
  refine (skipBlanks_cut hs hu).bind ?_
  rintro r _ ⟨hr, rfl⟩
  refine (skipChar_cut hs hr (by decide)).bind ?_
  rintro ⟨b, r⟩ ⟨-, -⟩ ⟨rfl, hr, rfl⟩
  refine Same.ite (fun _ => .ok ⟨rfl, hu, rfl⟩) fun _ => (parseCspan_cut hr ⟨'\n', hr.newline hs, by decide⟩).bind ?_
  rintro ⟨n, r⟩ ⟨-, -⟩ ⟨rfl, hr, rfl⟩
  cases n with
  | none => exact .ok ⟨rfl, hu, rfl⟩
  | some n =>
    refine (skipChar_cut hs hr (by decide)).bind ?_
    rintro ⟨b, r⟩ ⟨-, -⟩ ⟨rfl, hr, rfl⟩
    cases b with
    | true => exact .ok ⟨rfl, hr, rfl⟩
    | false => exact .ok ⟨rfl, hu, rfl⟩

theorem keywordNumber_cut (hs : EndsLine s) (hu : In s u) (w : Str) (hw : '\n' ∉ w) :
    Same (Pair s T) (keywordNumber w u) (keywordNumber w (u ++ T)) := by
  unfold keywordNumber
  obtain ⟨e, hr⟩ := skipString_cut (T := T) hs hu w hw
  rw [e]
  refine Same.ite (fun _ => .ok ⟨rfl, hu, rfl⟩) fun _ => (span_cut hr ⟨'\n', hr.newline hs, by decide⟩).bind ?_
  rintro ⟨n, r⟩ ⟨-, -⟩ ⟨rfl, hr, rfl⟩
  refine Same.ite (fun _ => .ok ⟨rfl, hr, rfl⟩) fun _ => (span_cut hr ⟨'\n', hr.newline hs, by decide⟩).bind ?_
  rintro ⟨n, r⟩ ⟨-, -⟩ ⟨rfl, hr, rfl⟩
  exact .ok ⟨rfl, hr, rfl⟩

theorem listContinues_cut (hs : EndsLine s) (ho : NoOpen s) (hu : In s u) : Same Eq (listContinues u) (listContinues (u ++ T)) := by
  unfold listContinues
  refine (timestamp_cut hs ho hu).bind ?_
  rintro ⟨b, r⟩ ⟨-, -⟩ ⟨rfl, hr, rfl⟩
  refine Same.ite (fun _ => .ok rfl) fun _ => ?_
  obtain ⟨e, -⟩ := skipString_cut (T := T) hs hu c!"Pid: " (by decide)
  rw [e]
  refine Same.ite (fun _ => .ok rfl) fun _ => (keywordNumber_cut hs hu c!"CPU" (by decide)).bind ?_
  rintro ⟨b, r⟩ ⟨-, -⟩ ⟨rfl, hr, rfl⟩
  refine Same.ite (fun _ => .ok rfl) fun _ => (keywordNumber_cut hs hr c!"irq event stamp" (by decide)).bind ?_
  rintro ⟨b, r⟩ ⟨-, -⟩ ⟨rfl, hr, rfl⟩
  refine Same.ite (fun _ => .ok rfl) fun _ => ?_
  obtain ⟨e, hr⟩ := skipString_cut (T := T) hs hr c!"CR2: " (by decide)
  dsimp only
  rw [e]
  refine Same.ite (fun _ => .ok rfl) fun _ => (span_cut hr ⟨'\n', hr.newline hs, by decide⟩).bind ?_
  rintro ⟨n, r⟩ ⟨-, -⟩ ⟨rfl, hr, rfl⟩
  exact .ok rfl

theorem storeModule_same (mods : List Str) (size : Nat) (m : Str) (h : mods.length < size) :
    Same (fun a b => a = b ∧ a.1.length < a.2) (storeModule mods size m) (storeModule mods size m) := by
  obtain ⟨r, h1, h2⟩ := storeModule_yields m h
  exact ⟨r, r, h1, h1, rfl, h2.2⟩

/-- The same modules and the same position, or the shorter text has ended. -/
def ModsCut (s T : Str) (a b : List Str × Nat × Str) : Prop := a.1.length < a.2.1 ∧ b.1.length < b.2.1 ∧
  ((a.1 = b.1 ∧ In s a.2.2 ∧ b.2.2 = a.2.2 ++ T) ∨ a.2.2 = [] ∧ (b.2.2 = '\n' :: T ∨ b.2.2 <:+ T))

theorem rest_iff {a b : Str} : Rest a b ↔ b <:+ a := ⟨fun ⟨u, h⟩ => ⟨u, h.symm⟩, fun ⟨u, h⟩ => ⟨u, h.symm⟩⟩

theorem suffix_cons_cases {c : Char} {r T : Str} (h : Rest (c :: T) r) : r = c :: T ∨ r <:+ T := by
  obtain ⟨u, h⟩ := h
  cases u with
  | nil => exact .inl h.symm
  | cons x u => exact .inr ⟨u, (List.cons.inj h).2.symm⟩

theorem modulesLoop_last (n m : Nat) (mods : List Str) (size ws : Nat) (hn : 1 ≤ n) (hm : (c!"\n" ++ T).length < m + 1) (hsz : mods.length < size) :
    Same (ModsCut s T) (modulesLoop (n + 1) mods size ws c!"\n") (modulesLoop (m + 1) mods size ws (c!"\n" ++ T)) := by
  obtain ⟨b, hb, hb1, hb2⟩ := modulesLoop_yields (m + 1) mods size ws (c!"\n" ++ T) hm hsz
  refine ⟨(mods, size, []), b, ?_, hb, hsz, hb1, .inr ⟨rfl, suffix_cons_cases hb2⟩⟩
  obtain ⟨n, rfl⟩ : ∃ k, n = k + 1 := ⟨n - 1, by omega⟩
  show (if peek [] ≠ ' ' ∧ ws = 0 ∧ mods ≠ [] then _ else _) = _
  split <;> rfl

theorem modulesLoop_cut (hs : EndsLine s) (ho : NoOpen s) : ∀ (n m : Nat) (mods : List Str) (size ws : Nat) (u : Str), In s u → u.length < n →
    (u ++ T).length < m → mods.length < size → Same (ModsCut s T) (modulesLoop n mods size ws u) (modulesLoop m mods size ws (u ++ T)) := by
  intro n
  induction n with
  | zero => intro _ _ _ _ u _ h; omega
  | succ n ih =>
    intro m mods size ws u hu hn hm hsz
    cases m with
    | zero => omega
    | succ m =>
    by_cases hlast : u = c!"\n"
    · subst hlast
      exact modulesLoop_last n m mods size ws (by simp at hn; omega) hm hsz
    unfold modulesLoop
    obtain ⟨⟨o, r⟩, ⟨-, -⟩, e1, e2, rfl, hr, rfl⟩ := parseCspan_cut (T := T) hu ⟨'\n', hu.newline hs, by decide⟩ (set := c!" \t\n[")
    have hy := parseCspan_yields u c!" \t\n["
    rw [e1] at hy
    obtain ⟨_, he, hy⟩ := hy
    cases he
    rw [e1, e2, Out.bind_ok, Out.bind_ok]
    cases o with
    | some name =>
      have hlt : r.length < u.length := by
        rcases hy with ⟨n, hn, hs, hne, -⟩ | ⟨hn, -⟩
        · have := List.length_pos_iff.2 hne
          have h2 := congrArg List.length hs
          rw [List.length_append] at h2
          dsimp only at h2
          omega
        · cases hn
      refine (storeModule_same mods size name hsz).bind ?_
      rintro a _ ⟨rfl, ha⟩
      have hsp := rest_span r c!" \t"
      obtain ⟨⟨k, r2⟩, ⟨-, -⟩, e1, e2, rfl, hr2, rfl⟩ := span_cut (T := T) hr ⟨'\n', hr.newline hs, by decide⟩ (set := c!" \t")
      rw [e1] at hsp
      obtain ⟨_, he, hsp⟩ := hsp
      cases he
      have hl := hsp.1.len
      dsimp only at hl ⊢
      rw [e1, e2, Out.bind_ok, Out.bind_ok]
      exact ih m _ _ _ r2 hr2 (by omega) (by rw [List.length_append] at hm ⊢; omega) ha
    | none =>
      dsimp only
      rw [peek_in hu]
      refine Same.ite (fun hp => ?_) fun _ => .ok ⟨hsz, hsz, .inl ⟨rfl, hu, rfl⟩⟩
      obtain ⟨t, rfl⟩ : ∃ t, u = '\n' :: t := by
        cases u with
        | nil => exact absurd hp (by decide)
        | cons c t => exact ⟨t, by rw [show c = '\n' from hp]⟩
      have ht : t ≠ [] := fun h => hlast (by rw [h])
      have ht' : In s t := hu.suffix (List.suffix_cons _ _) ht
      have hm' : (t ++ T).length < m := by simp at hm ⊢; omega
      have hn' : t.length < n := by simp at hn; omega
      rw [show advance ('\n' :: t) = .ok t from rfl, show advance ('\n' :: t ++ T) = .ok (t ++ T) from rfl, Out.bind_ok, Out.bind_ok]
      refine (listContinues_cut hs ho ht').bind ?_
      rintro c _ rfl
      rw [peek_in ht']
      refine Same.ite (fun _ => .ok ⟨hsz, hsz, .inl ⟨rfl, hu, rfl⟩⟩) fun _ => Same.ite (fun hj => ?_) fun _ => ?_
      · obtain ⟨⟨o, r⟩, ⟨-, -⟩, e1, e2, rfl, hr, rfl⟩ := parseCspan_cut (T := T) ht' ⟨'\n', ht'.newline hs, by decide⟩ (set := c!" \t\n[")
        have hrl : r.length ≤ t.length := by
          have hy := parseCspan_yields t c!" \t\n["
          rw [e1] at hy
          obtain ⟨_, he, hy⟩ := hy
          cases he
          rcases hy with ⟨n, hn, hs, -⟩ | ⟨-, hs⟩
          · have h2 := congrArg List.length hs
            rw [List.length_append] at h2
            dsimp only at h2
            omega
          · exact le_of_eq (congrArg List.length hs)
        rw [e1, e2, Out.bind_ok, Out.bind_ok]
        cases o with
        | none => exact .ok ⟨hsz, hsz, .inl ⟨rfl, ht', rfl⟩⟩
        | some rest =>
          have hsp := rest_span r c!" \t"
          obtain ⟨⟨k, r2⟩, ⟨-, -⟩, e1, e2, rfl, hr2, rfl⟩ := span_cut (T := T) hr ⟨'\n', hr.newline hs, by decide⟩ (set := c!" \t")
          rw [e1] at hsp
          obtain ⟨_, he, hsp⟩ := hsp
          cases he
          have hl := hsp.1.len
          dsimp only at hl ⊢
          rw [e1, e2, Out.bind_ok, Out.bind_ok]
          refine ih m _ _ _ r2 hr2 (by omega) (by rw [List.length_append] at hm' ⊢; omega) ?_
          have := List.length_pos_iff.2 hj.2.2
          simp only [List.length_append, List.length_dropLast, List.length_cons, List.length_nil]
          omega
      · have hsp := rest_span t c!" \t"
        obtain ⟨⟨k, r2⟩, ⟨-, -⟩, e1, e2, rfl, hr2, rfl⟩ := span_cut (T := T) ht' ⟨'\n', ht'.newline hs, by decide⟩ (set := c!" \t")
        rw [e1] at hsp
        obtain ⟨_, he, hsp⟩ := hsp
        cases he
        have hl := hsp.1.len
        dsimp only at hl ⊢
        rw [e1, e2, Out.bind_ok, Out.bind_ok]
        exact ih m _ _ _ r2 hr2 (by omega) (by rw [List.length_append] at hm' ⊢; omega) hsz

/-- Where two runs are after the same line: at the same position, or the shorter text has ended. -/
def After (s T a b : Str) : Prop := (In s a ∧ b = a ++ T) ∨ a = [] ∧ (b = '\n' :: T ∨ b <:+ T)

theorem parseModules_cut (hs : EndsLine s) (ho : NoOpen s) (hu : In s u) :
    Same (fun a b => (a = none ∧ b = none) ∨ ∃ ms ms' r r', a = some (ms, r) ∧ b = some (ms', r') ∧ After s T r r')
      (parseModules u) (parseModules (u ++ T)) := by
  unfold parseModules
  refine (skipBlanks_cut hs hu).bind ?_
  rintro r _ ⟨hr, rfl⟩
  obtain ⟨e, hr⟩ := skipString_cut (T := T) hs hr c!"Modules linked in:" (by decide)
  rw [e]
  refine Same.ite (fun _ => .ok (.inl ⟨rfl, rfl⟩)) fun _ => (span_cut hr ⟨'\n', hr.newline hs, by decide⟩).bind ?_
  rintro ⟨n, r⟩ ⟨-, -⟩ ⟨rfl, hr, rfl⟩
  refine (modulesLoop_cut hs ho _ _ [] 20 n r hr (Nat.lt_succ_self _) (Nat.lt_succ_self _) (by decide)).bind ?_
  rintro a b ⟨h1, h2, h3⟩
  rw [if_pos h1, if_pos h2]
  refine .ok (.inr ⟨_, _, _, _, rfl, rfl, ?_⟩)
  rcases h3 with ⟨-, h3, h4⟩ | h3
  · exact .inl ⟨h3, h4⟩
  · exact .inr h3

/-- The same state but for the modules. -/
def Alike (a b : State) : Prop := a.modules.isSome = b.modules.isSome ∧ a.ip = b.ip ∧ a.stack = b.stack ∧ a.frames = b.frames

theorem traceLine_cut (hs : EndsLine s) (hu : In s u) {st st' : State} (h : Alike st st') :
    Same (fun a b => Alike a.1 b.1 ∧ After s T a.2 b.2) (traceLine st u) (traceLine st' (u ++ T)) := by
  obtain ⟨m, ip, sp, fr⟩ := st
  obtain ⟨m', ip', sp', fr'⟩ := st'
  obtain ⟨h1, rfl, rfl, rfl⟩ : _ ∧ ip = ip' ∧ sp = sp' ∧ fr = fr' := h
  unfold traceLine
  refine (altEnd_cut hs hu).bind ?_
  rintro ⟨e, r⟩ ⟨-, -⟩ ⟨rfl, hr, rfl⟩
  refine (altStart_cut hs hr).bind ?_
  rintro ⟨b, r⟩ ⟨-, -⟩ ⟨rfl, hr, rfl⟩
  refine (frame_cut hs hr).bind ?_
  rintro _ _ (⟨rfl, rfl⟩ | ⟨k, t, rfl, rfl, ht⟩)
  · refine (cspan_cut hr ⟨'\n', hr.newline hs, by decide⟩).bind ?_
    rintro ⟨n, r⟩ ⟨-, -⟩ ⟨rfl, hr, rfl⟩
    exact .ok ⟨⟨h1, rfl, rfl, rfl⟩, .inl ⟨hr, rfl⟩⟩
  · refine .ok ⟨⟨h1, rfl, rfl, rfl⟩, ?_⟩
    by_cases h : t = []
    · subst h; exact .inr ⟨rfl, .inr List.suffix_rfl⟩
    · exact .inl ⟨⟨ht, h⟩, rfl⟩

theorem line_cut (hs : EndsLine s) (ho : NoOpen s) (hi : NoRip s) (hu : In s u) {st st' : State} (h : Alike st st') :
    Same (fun a b => Alike a.1 b.1 ∧ After s T a.2 b.2) (line st u) (line st' (u ++ T)) := by
  obtain ⟨m, ip, sp, fr⟩ := st
  obtain ⟨m', ip', sp', fr'⟩ := st'
  obtain ⟨h1, rfl, rfl, rfl⟩ : _ ∧ ip = ip' ∧ sp = sp' ∧ fr = fr' := h
  unfold line
  refine Same.bind (R := fun a b => (a = none ∧ b = none) ∨ ∃ ms ms' r r', a = some (ms, r) ∧ b = some (ms', r') ∧ After s T r r') ?_ ?_
  · unfold firstModules
    dsimp only at h1 ⊢
    rw [← h1]
    exact Same.ite (fun _ => .ok (.inl ⟨rfl, rfl⟩)) fun _ => parseModules_cut hs ho hu
  rintro _ _ (⟨rfl, rfl⟩ | ⟨ms, ms', r, r', rfl, rfl, hp⟩)
  swap
  · exact .ok ⟨⟨rfl, rfl, rfl, rfl⟩, hp⟩
  refine Same.bind (R := fun a b => (a = none ∧ b = none) ∨ ∃ k r r', a = some (k, r) ∧ b = some (k, r') ∧ After s T r r') ?_ ?_
  · unfold firstIp
    refine Same.ite (fun _ => .ok (.inl ⟨rfl, rfl⟩)) fun _ => (ip_cut hs hi hu).mono ?_
    rintro _ _ (h | ⟨k, r, r', rfl, rfl, hr, h⟩)
    · exact .inl h
    · refine .inr ⟨k, r, r', rfl, rfl, ?_⟩
      by_cases hn : r = []
      · subst hn
        rcases h with rfl | ⟨-, h⟩
        · exact .inr ⟨rfl, .inr List.suffix_rfl⟩
        · exact .inr ⟨rfl, .inr h⟩
      · rcases h with rfl | ⟨h, -⟩
        · exact .inl ⟨⟨hr, hn⟩, rfl⟩
        · exact absurd h hn
  rintro _ _ (⟨rfl, rfl⟩ | ⟨k, r, r', rfl, rfl, hp⟩)
  swap
  · exact .ok ⟨⟨h1, rfl, rfl, rfl⟩, hp⟩
  exact traceLine_cut hs hu ⟨h1, rfl, rfl, rfl⟩

/-- The frames after more lines: those before are at the beginning, except that the instruction pointer is put before them. -/
def Grown (T : Str) (st st' : State) : Prop := st.frames <+: st'.frames ∨
  st.ip = false ∧ ∃ k x r, x <:+ T ∧ parseIp x = .ok (some (k, r)) ∧ k :: st.frames <+: st'.frames

theorem ok_of {α : Type} {x : Out α} {a : α} {P : α → Prop} (h : Yields x P) (hx : x = .ok a) : P a := by
  obtain ⟨_, h, hp⟩ := h
  rw [hx] at h
  cases h
  exact hp

theorem line_grown {x : Str} {st st' : State} {r : Str} (h : line st x = .ok (st', r)) :
    Rest x r ∧ ((st'.ip = st.ip ∧ st.frames <+: st'.frames) ∨
      st.ip = false ∧ st'.ip = true ∧ ∃ k y, parseIp x = .ok (some (k, y)) ∧ st'.frames = k :: st.frames) := by
  unfold line at h
  obtain ⟨m, hm, h⟩ := bind_ok_iff.1 h
  cases m with
  | some m =>
    cases h
    refine ⟨?_, .inl ⟨rfl, List.prefix_rfl⟩⟩
    unfold firstModules at hm
    split at hm
    · cases hm
    · exact (ok_of (modules_yields x) hm _ _ rfl).1
  | none =>
    dsimp only at h
    obtain ⟨i, hi, h⟩ := bind_ok_iff.1 h
    cases i with
    | some i =>
      cases h
      unfold firstIp at hi
      by_cases hip : st.ip = true
      · rw [if_pos hip] at hi; cases hi
      · rw [if_neg hip] at hi
        exact ⟨(ok_of (ip_yields x) hi _ _ rfl).1, .inr ⟨by simpa using hip, rfl, i.1, i.2, hi, rfl⟩⟩
    | none =>
      dsimp only at h
      unfold traceLine at h
      obtain ⟨e, he, h⟩ := bind_ok_iff.1 h
      obtain ⟨b, hb, h⟩ := bind_ok_iff.1 h
      dsimp only at h
      obtain ⟨f, hf, h⟩ := bind_ok_iff.1 h
      have hr : Rest x b.2 := (ok_of (altEnd_yields x) he).trans (ok_of (x := altStart e.2) (altStart_yields e.2) hb)
      cases f with
      | some f =>
        cases h
        obtain ⟨u, hu, -⟩ := ok_of (frame_yields b.2) hf _ _ rfl
        exact ⟨hr.trans ⟨u, hu⟩, .inl ⟨rfl, List.prefix_append _ _⟩⟩
      | none =>
        dsimp only at h
        obtain ⟨c, hc, h⟩ := bind_ok_iff.1 h
        cases h
        exact ⟨hr.trans (ok_of (rest_cspan b.2 _) hc).1, .inl ⟨rfl, List.prefix_rfl⟩⟩

theorem Grown.refl (T : Str) (st : State) : Grown T st st := .inl List.prefix_rfl

theorem traceLoop_grown : ∀ (fuel : Nat) (st st' : State) (x r : Str), x <:+ T → traceLoop fuel st x = .ok (st', r) → Grown T st st' ∧ (st.ip = true → st'.ip = true)  := by
  intro fuel
  induction fuel with
  | zero => intro _ _ _ _ _ h; cases h
  | succ fuel ih =>
    intro st st' x r hx h
    unfold traceLoop at h
    split at h
    · cases h; exact ⟨Grown.refl _ _, id⟩
    obtain ⟨x1, h1, h⟩ := bind_ok_iff.1 h
    obtain ⟨t, h2, h⟩ := bind_ok_iff.1 h
    obtain ⟨x2, h3, h⟩ := bind_ok_iff.1 h
    split at h
    · cases h; exact ⟨Grown.refl _ _, id⟩
    obtain ⟨⟨st1, x3⟩, h4, h⟩ := bind_ok_iff.1 h
    obtain ⟨n, h5, h⟩ := bind_ok_iff.1 h
    have r2 : Rest x x2 := (ok_of (rest_blanks x) h1).trans ((ok_of (timestamp_yields x1) h2).trans (ok_of (rest_blanks t.2) h3))
    obtain ⟨r3, hg⟩ := line_grown h4
    have r4 := (ok_of (rest_char x3 (by decide)) h5).1
    have hT : n.2 <:+ T := (rest_iff.1 (r2.trans (r3.trans r4))).trans hx
    obtain ⟨g, gi⟩ := ih st1 st' n.2 r hT h
    rcases hg with ⟨e1, e2⟩ | ⟨e1, e2, k, y, e3, e4⟩
    · refine ⟨?_, fun hi => gi (e1.trans hi)⟩
      rcases g with g | ⟨g1, k, x, y, g2, g3, g4⟩
      · exact .inl (e2.trans g)
      · refine .inr ⟨e1 ▸ g1, k, x, y, g2, g3, ?_⟩
        exact ((List.prefix_cons_inj k).2 e2).trans g4
    · refine ⟨.inr ⟨e1, k, x2, y, (rest_iff.1 r2).trans hx, e3, ?_⟩, fun hi => gi e2⟩
      rcases g with g | ⟨g1, -⟩
      · exact e4 ▸ g
      · rw [e2] at g1; cases g1

theorem traceLoop_cut (hs : EndsLine s) (ho : NoOpen s) (hi : NoRip s) : ∀ (n m : Nat) (st st' a b : State) (u x y : Str), Alike st st' → In s u →
    traceLoop n st u = .ok (a, x) → traceLoop m st' (u ++ T) = .ok (b, y) → Grown T a b := by
  intro n
  induction n with
  | zero => intro _ _ _ _ _ _ _ _ _ _ h; cases h
  | succ n ih =>
    intro m st st' a b u x y hst hu h h'
    cases m with
    | zero => cases h'
    | succ m =>
    unfold traceLoop at h h'
    rw [peek_in hu] at h'
    by_cases h0 : peek u = '\x00'
    · rw [if_pos h0] at h h'
      cases h; cases h'
      exact .inl (hst.2.2.2 ▸ List.prefix_rfl)
    rw [if_neg h0] at h h'
    obtain ⟨s1, _, e1, e1', hs1, rfl⟩ := skipBlanks_cut (T := T) hs hu
    rw [e1, Out.bind_ok] at h
    rw [e1', Out.bind_ok] at h'
    obtain ⟨⟨q, s2⟩, ⟨-, -⟩, e2, e2', rfl, hs2, rfl⟩ := timestamp_cut (T := T) hs ho hs1
    rw [e2, Out.bind_ok] at h
    rw [e2', Out.bind_ok] at h'
    dsimp only at h h' hs2
    obtain ⟨s3, _, e3, e3', hs3, rfl⟩ := skipBlanks_cut (T := T) hs hs2
    rw [e3, Out.bind_ok] at h
    rw [e3', Out.bind_ok] at h'
    obtain ⟨e4, -⟩ := skipString_end (T := T) hs hs3 c!"Last Breaking-Event-Address:\n" (by decide)
    rw [e4] at h'
    by_cases hl : (skipString s3 c!"Last Breaking-Event-Address:\n").1 ≠ 0
    · rw [if_pos hl] at h h'
      cases h; cases h'
      exact .inl (hst.2.2.2 ▸ List.prefix_rfl)
    rw [if_neg hl] at h h'
    obtain ⟨⟨st1, r⟩, ⟨st1', r'⟩, e5, e5', ha, hp⟩ := line_cut (T := T) hs ho hi hs3 hst
    rw [e5, Out.bind_ok] at h
    rw [e5', Out.bind_ok] at h'
    dsimp only at h h' ha hp
    have key : ∀ z, z <:+ T → traceLoop n st1 [] = .ok (a, x) → traceLoop m st1' z = .ok (b, y) → Grown T a b := by
      intro z hz h h'
      have : a = st1 := by
        cases n with
        | zero => cases h
        | succ n => cases h; rfl
      subst this
      have := (traceLoop_grown m st1' b z y hz h').1
      unfold Grown at this ⊢
      rw [ha.2.1, ha.2.2.2]
      exact this
    rcases hp with ⟨hr, rfl⟩ | ⟨rfl, hr⟩
    · obtain ⟨⟨q, v⟩, ⟨-, -⟩, e6, e6', rfl, hv, rfl⟩ := skipChar_end (T := T) hr '\n'
      rw [e6, Out.bind_ok] at h
      rw [e6', Out.bind_ok] at h'
      dsimp only at h h' hv
      by_cases hne : v = []
      · subst hne
        exact key T List.suffix_rfl h h'
      · exact ih m _ _ _ _ v x y ha ⟨hv, hne⟩ h h'
    · rw [show skipChar [] '\n' = .ok (false, []) from rfl, Out.bind_ok] at h
      obtain ⟨v, h6, h'⟩ := bind_ok_iff.1 h'
      refine key v.2 ?_ h h'
      rcases hr with rfl | hr
      · rw [show skipChar ('\n' :: T) '\n' = .ok (true, T) from skipChar_cons (by decide) _] at h6
        cases h6
        exact List.suffix_rfl
      · exact (rest_iff.1 (ok_of (rest_char r' (by decide)) h6).1).trans hr

/-- An oops can be cut off after this text: it ends with a line, and neither within the brackets of a timestamp nor before the address of an
instruction pointer. -/
structure Whole (s : Str) : Prop where
  line : EndsLine s
  stamp : NoOpen s
  ip : NoRip s

/-- **C141** (kernel oopses): when the text of an oops is cut off after a line, the frames that are read are the first frames of the whole
oops. Only the instruction pointer, when it stands in the part that was cut off, comes before them. -/
theorem C141_koops_partial {s : Str} (h : Whole s) (T : Str) : ∃ a x b y, parseTrace s = .ok (a, x) ∧ parseTrace (s ++ T) = .ok (b, y) ∧
    a.reason = b.reason ∧ (a.frames <+: b.frames ∨
      ∃ k v r, v <:+ T ∧ parseIp v = .ok (some (k, r)) ∧ k :: a.frames <+: b.frames) := by
  obtain ⟨⟨a, x⟩, ha, -⟩ := traceLoop_yields s _ {} s (Nat.lt_succ_self _) (Rest.refl _) (by intro k hk; cases hk)
  obtain ⟨⟨b, y⟩, hb, -⟩ := traceLoop_yields (s ++ T) _ {} (s ++ T) (Nat.lt_succ_self _) (Rest.refl _) (by intro k hk; cases hk)
  have hu : In s s := ⟨List.suffix_rfl, by
    obtain ⟨r, hr⟩ := h.line
    rw [hr]
    simp⟩
  refine ⟨_, x, _, y, by rw [parseTrace, ha, Out.bind_ok], by rw [parseTrace, hb, Out.bind_ok], ?_, ?_⟩
  · obtain ⟨r, hr⟩ := h.line
    rw [(takeWhile_cut (T := T) (u := s) (p := fun c => decide (c ≠ '\n')) ⟨'\n', by simp [hr], by decide⟩).1]
  · rcases traceLoop_cut h.line h.stamp h.ip _ _ _ _ _ _ s x y ⟨rfl, rfl, rfl, rfl⟩ hu ha hb with g | ⟨-, k, v, r, h1, h2, h3⟩
    · exact .inl g
    · exact .inr ⟨k, v, r, h1, h2, h3⟩

/-- The conditions can be checked at every position of the text. -/
theorem whole_of {s : Str} (h1 : s.getLast? = some '\n')
    (h2 : (s.tails.all fun x => peek x != '[' || x.tail.any fun c => !(c!" \t\r\n\x0b\x0c").contains c) = true)
    (h3 : (s.tails.all fun x => !startsWith x c!"RIP:" || ((x.drop 4).dropWhile fun c => (c!" \t").contains c).any fun c => (c!" \t").contains c) = true) :
    Whole s := by
  refine ⟨?_, fun a w hw => ?_, fun a b w hw hb hb' hp => ?_⟩
  · exact .of h1
  · have := List.all_eq_true.1 h2 ('[' :: w) ((List.mem_tails _ _).2 ⟨a, hw.symm⟩)
    simpa using this
  · have := List.all_eq_true.1 h3 (c!"RIP:" ++ (b ++ w)) ((List.mem_tails _ _).2 ⟨a, hw.symm⟩)
    have e : (b ++ w).dropWhile (fun c => (c!" \t").contains c) = w := by
      rw [List.dropWhile_append_of_pos (fun c hc => by simpa using hb' c hc)]
      cases w with
      | nil => rfl
      | cons c w => rw [List.dropWhile_cons_of_neg]; simpa using hp
    rw [show (c!"RIP:" ++ (b ++ w)).drop 4 = b ++ w from rfl, e, show startsWith (c!"RIP:" ++ (b ++ w)) c!"RIP:" = true from rfl] at this
    simpa using this

/-- An oops that was cut off between two frames, and the whole oops. -/
example : Whole c!"BUG: x\nRIP: 0010:[<10>] [<10>] f+0x1/0x2\nRSP: 0018\nCall Trace:\n [<20>] g+0x1/0x2\n" ∧
    (parseTrace c!"BUG: x\nRIP: 0010:[<10>] [<10>] f+0x1/0x2\nRSP: 0018\nCall Trace:\n [<20>] g+0x1/0x2\n").bind
      (fun r => .ok (r.1.frames.map (·.functionName))) = .ok [some c!"f", some c!"g"] ∧
    (parseTrace (c!"BUG: x\nRIP: 0010:[<10>] [<10>] f+0x1/0x2\nRSP: 0018\nCall Trace:\n [<20>] g+0x1/0x2\n" ++ c!" [<30>] h+0x1/0x2\n")).bind
      (fun r => .ok (r.1.frames.map (·.functionName))) = .ok [some c!"f", some c!"g", some c!"h"] :=
  ⟨whole_of (by decide +kernel) (by decide +kernel) (by decide +kernel), by decide +kernel, by decide +kernel⟩

/-- The frames of the beginning are not always first: the instruction pointer of the whole oops is put before them. -/
theorem C141_not_koops_ip : ∃ (s T : Str) (a b : KoopsTrace), Whole s ∧ parseTrace s = .ok (a, []) ∧ parseTrace (s ++ T) = .ok (b, []) ∧
    a.frames.map (·.functionName) = [some c!"g"] ∧ b.frames.map (·.functionName) = [some c!"f", some c!"g"] :=
  ⟨c!"Call Trace:\n [<20>] g+0x1/0x2\n", c!"RIP: 0010:[<10>] [<10>] f+0x1/0x2\n", _, _,
    whole_of (by decide +kernel) (by decide +kernel) (by decide +kernel), by with_unfolding_all rfl, by with_unfolding_all rfl, by decide +kernel, by decide +kernel⟩

/-- When the text ends within a line with an instruction pointer, a frame of the beginning may be missing in the whole oops: the blank after
which the address is looked for may stand lines below. -/
theorem C141_not_koops_blank : ∃ (s T : Str) (a b : KoopsTrace), EndsLine s ∧ NoOpen s ∧ parseTrace s = .ok (a, []) ∧ parseTrace (s ++ T) = .ok (b, []) ∧
    a.frames.map (·.functionName) = [some c!"g"] ∧ b.frames.map (·.functionName) = [some c!"h"] :=
  ⟨c!"RIP: 1:f\ng+0x1/0x2\n", c!" h+0x1/0x2\n", _, _, .of (by decide +kernel), by
    intro a w h
    exact absurd (show '[' ∈ c!"RIP: 1:f\ng+0x1/0x2\n" by rw [h]; simp) (by decide), by with_unfolding_all rfl, by with_unfolding_all rfl, by decide +kernel, by decide +kernel⟩

end Satyr.Text.Koops
