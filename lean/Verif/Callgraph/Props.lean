import Verif.Callgraph.Model
import Verif.Disasm.Props
import Mathlib.Logic.Relation
/-!
# Properties of call graphs

C86: extending a call graph adds exactly the functions that are called, directly or not, from the start address; C87: the call
graph of all functions has a node for each of them.
-/
namespace Satyr.Callgraph
open Satyr.CStr Satyr.Elf Satyr.Disasm

/-! ## Specification -/

/-- The address of the first instruction of a function. -/
def address (d : Fde) : Nat := (d.start + d.execBase) % 2 ^ 64

/-- The instructions of the function that starts at an address: there are none if no function starts there, or if it cannot be
disassembled. -/
def code (dis : Disassembler) (fdes : List Fde) (a : Nat) : Option (List Str) :=
  (fdes.find? fun d => address d = a).bind fun d => (dis a d.length).toOption

/-- The function at `a` calls the address `b`. -/
def Calls (dis : Disassembler) (fdes : List Fde) (a b : Nat) : Prop := ∃ ins, code dis fdes a = some ins ∧ b ∈ targets ins

/-- `b` is called from `a`, directly or not. -/
abbrev Reaches (dis : Disassembler) (fdes : List Fde) : Nat → Nat → Prop := Relation.ReflTransGen (Calls dis fdes)

/-- There is a function at the address. -/
def IsFunction (dis : Disassembler) (fdes : List Fde) (a : Nat) : Prop := ∃ ins, code dis fdes a = some ins

/-- The addresses of the nodes. -/
def addresses (g : List Node) : List Nat := g.map (·.address)

/-- The node is the one of the function at its address: its callees are the different call targets, and the terminating zero. -/
def IsNode (dis : Disassembler) (fdes : List Fde) (n : Node) : Prop :=
  ∃ ins, code dis fdes n.address = some ins ∧ n.callees = firsts (targets ins) ++ [0]

/-- A graph that has, with every function, also the functions it calls (the assumption of lib/callgraph.h:78-79). -/
def Closed (dis : Disassembler) (fdes : List Fde) (g : List Node) : Prop :=
  ∀ a ∈ addresses g, ∀ b, Calls dis fdes a b → IsFunction dis fdes b → b ∈ addresses g

/-- In all functions, some call target occurs twice, so that the array of call targets is large enough (see `C58_not_distinct`),
and the address 0 is not called. -/
def Usual (dis : Disassembler) (fdes : List Fde) : Prop :=
  ∀ a ins, code dis fdes a = some ins → ¬ (targets ins).Nodup ∧ 0 ∉ targets ins

/-! ## Lemmas -/

theorem find_isSome (a : Nat) (g : List Node) : (find a g).isSome = true ↔ a ∈ addresses g := by
  induction g with
  | nil => simp [find, addresses]
  | cons n g ih =>
    rw [find]
    by_cases h : n.address = a
    · simp [h, addresses]
    · rw [if_neg h, ih]
      simp only [addresses, List.map_cons, List.mem_cons]
      exact ⟨.inr, fun h' => h'.resolve_left fun e => h e.symm⟩

theorem findStart_eq (a : Nat) (fdes : List Fde) : findStart a fdes = fdes.find? fun d => address d = a := by
  induction fdes with
  | nil => rfl
  | cons d l ih =>
    rw [findStart, List.find?_cons, ih]
    by_cases h : address d = a
    · rw [if_pos (show a = (d.start + d.execBase) % 2 ^ 64 from h.symm)]; simp [h]
    · rw [if_neg (show ¬ a = (d.start + d.execBase) % 2 ^ 64 from fun e => h e.symm)]; simp [h]

theorem takeWhile_all {l : List Nat} (h : 0 ∉ l) : (l ++ [0]).takeWhile (· ≠ 0) = l := by
  induction l with
  | nil => rfl
  | cons a l ih =>
    have ha : a ≠ 0 := by rintro rfl; simp at h
    rw [List.cons_append, List.takeWhile_cons, if_pos (by simpa using ha), ih (fun hm => h (by simp [hm]))]

/-- How many functions are missing in the graph. -/
def missing (fdes : List Fde) (g : List Node) : Nat :=
  ((fdes.map address).filter fun a => a ∉ addresses g).length

theorem addresses_append (g h : List Node) : addresses (g ++ h) = addresses g ++ addresses h := List.map_append

theorem filter_le (A B l : List Nat) :
    (l.filter fun a => a ∉ A ++ B).length ≤ (l.filter fun a => a ∉ A).length := by
  induction l with
  | nil => simp
  | cons a l ih =>
    rw [List.filter_cons, List.filter_cons]
    by_cases h : a ∈ A
    · rw [if_neg (by simp [h]), if_neg (by simpa using h)]
      exact ih
    · rw [if_pos (c := decide (a ∉ A) = true) (by simpa using h)]
      split
      · rw [List.length_cons, List.length_cons]; omega
      · rw [List.length_cons]; omega

theorem filter_lt (A l : List Nat) (x : Nat) (hn : x ∉ A) (hm : x ∈ l) :
    (l.filter fun a => a ∉ A ++ [x]).length < (l.filter fun a => a ∉ A).length := by
  induction l with
  | nil => simp at hm
  | cons a l ih =>
    rw [List.filter_cons, List.filter_cons]
    have hle := filter_le A [x] l
    by_cases h : a = x
    · subst h
      rw [if_neg (by simp), if_pos (by simpa using hn), List.length_cons]
      omega
    · have := ih ((List.mem_cons.1 hm).resolve_left fun e => h e.symm)
      by_cases h1 : a ∈ A
      · rw [if_neg (by simp [h1]), if_neg (by simpa using h1)]
        exact this
      · have h2 : a ∉ A ++ [x] := by simp [h1, h]
        rw [if_pos (by simpa using h2), if_pos (by simpa using h1), List.length_cons, List.length_cons]
        omega

theorem missing_append_le (fdes : List Fde) (g new : List Node) : missing fdes (g ++ new) ≤ missing fdes g := by
  unfold missing
  rw [addresses_append]
  exact filter_le _ _ _

theorem missing_append_lt (fdes : List Fde) (g : List Node) (n : Node) (hn : n.address ∉ addresses g)
    (hm : n.address ∈ fdes.map address) : missing fdes (g ++ [n]) < missing fdes g := by
  unfold missing
  rw [addresses_append]
  exact filter_lt _ _ _ hn hm

/-- What is added to a graph for some addresses. -/
structure Added (dis : Disassembler) (fdes : List Fde) (g : List Node) (starts : List Nat) (new : List Node) : Prop where
  present : ∀ a ∈ starts, IsFunction dis fdes a → a ∈ addresses (g ++ new)
  reached : ∀ b ∈ addresses new, ∃ a ∈ starts, Reaches dis fdes a b
  nodup : (addresses new).Nodup
  fresh : ∀ b ∈ addresses new, b ∉ addresses g
  nodes : ∀ n ∈ new, IsNode dis fdes n
  closed : ∀ a ∈ addresses new, ∀ b, Calls dis fdes a b → IsFunction dis fdes b → b ∈ addresses (g ++ new)

theorem Added.nil (dis : Disassembler) (fdes : List Fde) (g : List Node) (starts : List Nat)
    (h : ∀ a ∈ starts, IsFunction dis fdes a → a ∈ addresses g) : Added dis fdes g starts [] where
  present := by simpa using h
  reached := by simp [addresses]
  nodup := by simp [addresses]
  fresh := by simp [addresses]
  nodes := by simp
  closed := by simp [addresses]

theorem Added.append {dis : Disassembler} {fdes : List Fde} {g : List Node} {s t : List Nat} {new new' : List Node}
    (h : Added dis fdes g s new) (h' : Added dis fdes (g ++ new) t new') : Added dis fdes g (s ++ t) (new ++ new') where
  present := by
    intro a ha hf
    rw [← List.append_assoc]
    rcases List.mem_append.1 ha with ha | ha
    · rw [addresses_append]; exact List.mem_append_left _ (h.present a ha hf)
    · exact h'.present a ha hf
  reached := by
    intro b hb
    rw [addresses_append] at hb
    rcases List.mem_append.1 hb with hb | hb
    · obtain ⟨a, ha, hr⟩ := h.reached b hb; exact ⟨a, List.mem_append_left _ ha, hr⟩
    · obtain ⟨a, ha, hr⟩ := h'.reached b hb; exact ⟨a, List.mem_append_right _ ha, hr⟩
  nodup := by
    rw [addresses_append, List.nodup_append]
    refine ⟨h.nodup, h'.nodup, ?_⟩
    rintro a ha b hb rfl
    exact h'.fresh a hb (by rw [addresses_append]; exact List.mem_append_right _ ha)
  fresh := by
    intro b hb
    rw [addresses_append] at hb
    rcases List.mem_append.1 hb with hb | hb
    · exact h.fresh b hb
    · intro hg; exact h'.fresh b hb (by rw [addresses_append]; exact List.mem_append_left _ hg)
  nodes := by
    intro n hn
    rcases List.mem_append.1 hn with hn | hn
    · exact h.nodes n hn
    · exact h'.nodes n hn
  closed := by
    intro a ha b hc hf
    rw [← List.append_assoc]
    rw [addresses_append] at ha
    rcases List.mem_append.1 ha with ha | ha
    · rw [addresses_append]; exact List.mem_append_left _ (h.closed a ha b hc hf)
    · exact h'.closed a ha b hc hf

/-- What a call of `extend` gives. -/
def Extends (dis : Disassembler) (fdes : List Fde) (g : List Node) (a : Nat) (r : Out (Option (List Node) × Option Str)) : Prop :=
  (a ∉ addresses g ∧ ¬ IsFunction dis fdes a ∧ ∃ m, r = .ok (none, some m)) ∨
  ((a ∈ addresses g ∨ IsFunction dis fdes a) ∧ ∃ new, r = .ok (some (g ++ new), none) ∧ Added dis fdes g [a] new ∧
    (a ∈ addresses g → new = []))

theorem extendAll_spec {dis : Disassembler} {fdes : List Fde} {ext : List Node → Nat → Out (Option (List Node) × Option Str)}
    {k : Nat} (hext : ∀ g a, missing fdes g < k → Extends dis fdes g a (ext g a)) (l : List Nat) (g : List Node)
    (hk : missing fdes g < k) : ∃ new, extendAll ext g none l = .ok (g ++ new, none) ∧ Added dis fdes g l new := by
  induction l generalizing g with
  | nil => exact ⟨[], by simp [extendAll], Added.nil dis fdes g [] (by simp)⟩
  | cons a l ih =>
    rw [extendAll]
    rcases hext g a hk with ⟨hm, hf, m, he⟩ | ⟨hor, new, he, hadd, -⟩
    · rw [he]
      obtain ⟨new, h1, h2⟩ := ih g hk
      refine ⟨new, h1, ?_⟩
      have h0 : Added dis fdes g [a] [] := Added.nil dis fdes g [a] (by
        intro b hb hfb; rw [List.mem_singleton.1 hb] at hfb; exact absurd hfb hf)
      have := h0.append (t := l) (new' := new) (by simpa using h2)
      simpa using this
    · rw [he]
      obtain ⟨new', h1, h2⟩ := ih (g ++ new) (Nat.lt_of_le_of_lt (missing_append_le fdes g new) hk)
      refine ⟨new ++ new', ?_, hadd.append h2⟩
      rw [← List.append_assoc]
      exact h1

theorem extend_spec {dis : Disassembler} {fdes : List Fde} (hu : Usual dis fdes) (n : Nat) (g : List Node) (a : Nat)
    (hn : missing fdes g < n) : Extends dis fdes g a (extend dis fdes n g a) := by
  induction n generalizing g a with
  | zero => omega
  | succ n ih =>
    rw [extend]
    by_cases hg : a ∈ addresses g
    · rw [if_pos ((find_isSome a g).2 hg)]
      exact .inr ⟨.inl hg, [], by simp, Added.nil dis fdes g [a] (by intro b hb _; rwa [List.mem_singleton.1 hb]), fun _ => rfl⟩
    · rw [if_neg (fun h => hg ((find_isSome a g).1 h)), findStart_eq]
      cases hd : fdes.find? fun d => address d = a with
      | none => exact .inl ⟨hg, by rintro ⟨ins, h⟩; rw [code, hd] at h; simp at h, _, rfl⟩
      | some d =>
        have had : address d = a := by simpa using List.find?_some hd
        have had' : (d.execBase + d.start) % 2 ^ 64 = a := by rw [Nat.add_comm]; exact had
        dsimp only
        rw [had']
        cases hdis : dis a d.length with
        | error e => exact .inl ⟨hg, by rintro ⟨ins, h⟩; rw [code, hd] at h; simp [hdis, Except.toOption] at h, _, rfl⟩
        | ok ins =>
          have hcode : code dis fdes a = some ins := by rw [code, hd]; simp [hdis, Except.toOption]
          obtain ⟨hnd, h0⟩ := hu a ins hcode
          dsimp only
          rw [C58_addresses_partial ins hnd, Out.bind_ok]
          have h0' : 0 ∉ firsts (targets ins) := fun h => h0 ((firsts_spec _).2 0 |>.1 h)
          rw [takeWhile_all h0']
          generalize hnode : ({ address := a, callees := firsts (targets ins) ++ [0] } : Node) = node
          have hna : node.address = a := by rw [← hnode]
          have hlt : missing fdes (g ++ [node]) < missing fdes g := by
            refine missing_append_lt fdes g node (by rwa [hna]) ?_
            rw [hna]
            exact List.mem_map.2 ⟨d, List.mem_of_find?_eq_some hd, had⟩
          obtain ⟨new, h1, h2⟩ := extendAll_spec (k := n) (fun g a => ih g a) (firsts (targets ins)) (g ++ [node]) (by omega)
          rw [h1, Out.bind_ok]
          refine .inr ⟨.inr ⟨ins, hcode⟩, node :: new, by simp, ?_, fun h => absurd h hg⟩
          have haddr : addresses (node :: new) = a :: addresses new := by simp [addresses, hna]
          have happ : addresses (g ++ node :: new) = addresses (g ++ [node] ++ new) := by simp
          refine ⟨?_, ?_, ?_, ?_, ?_, ?_⟩
          · intro b hb _
            rw [List.mem_singleton.1 hb, addresses_append, haddr]
            simp
          · intro b hb
            rw [haddr] at hb
            rcases List.mem_cons.1 hb with rfl | hb
            · exact ⟨b, by simp, Relation.ReflTransGen.refl⟩
            · obtain ⟨c, hc, hr⟩ := h2.reached b hb
              exact ⟨a, by simp, Relation.ReflTransGen.head ⟨ins, hcode, (firsts_spec _).2 c |>.1 hc⟩ hr⟩
          · rw [haddr, List.nodup_cons]
            refine ⟨fun h => h2.fresh a h ?_, h2.nodup⟩
            rw [addresses_append]
            simp [addresses, hna]
          · intro b hb
            rw [haddr] at hb
            rcases List.mem_cons.1 hb with rfl | hb
            · exact hg
            · intro hbg; exact h2.fresh b hb (by rw [addresses_append]; exact List.mem_append_left _ hbg)
          · intro m hm
            rcases List.mem_cons.1 hm with rfl | hm
            · exact ⟨ins, by rw [hna]; exact hcode, by rw [← hnode]⟩
            · exact h2.nodes m hm
          · intro x hx b hc hf
            rw [happ]
            rw [haddr] at hx
            rcases List.mem_cons.1 hx with rfl | hx
            · obtain ⟨ins', hi, hb⟩ := hc
              rw [hcode, Option.some.injEq] at hi
              subst hi
              exact h2.present b ((firsts_spec _).2 b |>.2 hb) hf
            · exact h2.closed x hx b hc hf

theorem grow_spec {dis : Disassembler} {fdes : List Fde} (hu : Usual dis fdes) (g : List Node) (a : Nat) :
    Extends dis fdes g a (grow dis fdes g a) := by
  apply extend_spec hu
  unfold missing
  have := List.length_filter_le (fun a => a ∉ addresses g) (fdes.map address)
  rw [List.length_map] at this
  omega

theorem closed_reaches {dis : Disassembler} {fdes : List Fde} {g : List Node} (hc : Closed dis fdes g) {a b : Nat}
    (h : Reaches dis fdes a b) (ha : a ∈ addresses g) (hb : IsFunction dis fdes b) : b ∈ addresses g := by
  induction h with
  | refl => exact ha
  | tail h1 h2 ih => exact hc _ (ih ⟨h2.choose, h2.choose_spec.1⟩) _ h2 hb

/-! ## Properties -/

/-- C86: extending a graph, which with every function has those it calls, by a start address at which there is a function (or
which is in the graph already), gives a graph that starts with the old one, has as further nodes exactly the functions that are
called from there, directly or not, each once and with its call targets, and again has with every function those it calls. No
error message remains. -/
theorem C86_reached_partial (dis : Disassembler) (fdes : List Fde) (g : List Node) (a : Nat) (hu : Usual dis fdes)
    (hc : Closed dis fdes g) (ha : a ∈ addresses g ∨ IsFunction dis fdes a) :
    ∃ new, grow dis fdes g a = .ok (some (g ++ new), none) ∧
      (∀ b, b ∈ addresses new ↔ b ∉ addresses g ∧ IsFunction dis fdes b ∧ Reaches dis fdes a b) ∧
      (addresses new).Nodup ∧ (∀ n ∈ new, IsNode dis fdes n) ∧ Closed dis fdes (g ++ new) := by
  rcases grow_spec hu g a with ⟨h1, h2, -⟩ | ⟨-, new, hr, h, hnil⟩
  · exact absurd ha (by tauto)
  · have hcl : Closed dis fdes (g ++ new) := by
      intro x hx b hxb hb
      rw [addresses_append] at hx
      rcases List.mem_append.1 hx with hx | hx
      · rw [addresses_append]; exact List.mem_append_left _ (hc x hx b hxb hb)
      · exact h.closed x hx b hxb hb
    refine ⟨new, hr, fun b => ⟨fun hb => ?_, fun ⟨hb, hf, hrb⟩ => ?_⟩, h.nodup, h.nodes, hcl⟩
    · obtain ⟨x, hx, hxr⟩ := h.reached b hb
      rw [List.mem_singleton.1 hx] at hxr
      obtain ⟨n, hn, rfl⟩ := List.mem_map.1 hb
      obtain ⟨ins, hi, -⟩ := h.nodes n hn
      exact ⟨h.fresh _ hb, ⟨ins, hi⟩, hxr⟩
    · have hin : a ∈ addresses (g ++ new) := by
        rcases ha with ha | ha
        · rw [addresses_append]; exact List.mem_append_left _ ha
        · exact h.present a (by simp) ha
      have := closed_reaches hcl hrb hin hf
      rw [addresses_append] at this
      exact (List.mem_append.1 this).resolve_left hb

/-- C86: a graph cannot be extended by an address at which there is no function; then there is an error message. -/
theorem C86_failure_partial (dis : Disassembler) (fdes : List Fde) (g : List Node) (a : Nat) (hu : Usual dis fdes)
    (ha : a ∉ addresses g) (hf : ¬ IsFunction dis fdes a) : ∃ m, grow dis fdes g a = .ok (none, some m) := by
  rcases grow_spec hu g a with ⟨-, -, h⟩ | ⟨h, -⟩
  · exact h
  · exact absurd h (by tauto)

/-- C86: if there is no function at the address, the message names it in hexadecimal digits. -/
theorem C86_message (dis : Disassembler) (fdes : List Fde) (g : List Node) (a : Nat) (ha : a ∉ addresses g)
    (hf : ∀ d ∈ fdes, address d ≠ a) : grow dis fdes g a = .ok (none, some (c!"Unable to find FDE for address 0x" ++ natHex a)) := by
  rw [grow, extend, if_neg (fun h => ha ((find_isSome a g).1 h)), findStart_eq]
  have : (fdes.find? fun d => address d = a) = none := by simpa using hf
  rw [this]
  rfl

example : grow (fun _ _ => .ok []) [⟨0, 0x10, 16⟩] [] 0x2f = .ok (none, some c!"Unable to find FDE for address 0x2f") := by
  decide +kernel

/-- C86 does not hold for a function whose call targets are all different: the program then writes outside of an array. -/
theorem C86_not_distinct (dis : Disassembler) (fdes : List Fde) (g : List Node) (a : Nat) (ins : List Str)
    (ha : a ∉ addresses g) (hc : code dis fdes a = some ins) (h : (targets ins).Nodup) : grow dis fdes g a = .ub := by
  rw [grow, extend, if_neg (fun h => ha ((find_isSome a g).1 h)), findStart_eq]
  rw [code] at hc
  cases hd : fdes.find? fun d => address d = a with
  | none => rw [hd] at hc; simp at hc
  | some d =>
    rw [hd] at hc
    have had : address d = a := by simpa using List.find?_some hd
    have had' : (d.execBase + d.start) % 2 ^ 64 = a := by rw [Nat.add_comm]; exact had
    dsimp only
    rw [had']
    cases hdis : dis a d.length with
    | error e => simp [hdis, Except.toOption] at hc
    | ok ins' =>
      have : ins' = ins := by simpa [hdis, Except.toOption] using hc
      subst this
      dsimp only
      rw [C58_not_distinct ins' h]
      rfl

/-- The functions of a small program: `main` at 0x1000 calls the functions at 0x1010 and 0x1020, the first of which calls itself,
and an address that is not a function; the function at 0x1030 is not called. -/
def sampleFdes : List Fde :=
  [⟨0x1000, 0, 16⟩, ⟨0x1000, 0x10, 16⟩, ⟨0x1000, 0x20, 16⟩, ⟨0x1000, 0x30, 16⟩]

def sampleDis : Disassembler := fun a _ =>
  if a = 0x1000 then .ok [c!"callq 1010", c!"callq 1020", c!"callq 1010"]
  else if a = 0x1010 then .ok [c!"callq 1010", c!"callq 500", c!"callq 500"]
  else if a = 0x1020 then .ok [c!"nop", c!"callq 1010", c!"callq 1010", c!"ret"]
  else if a = 0x1030 then .ok [c!"callq 1000", c!"callq 1000"]
  else .error c!"unknown"

example : grow sampleDis sampleFdes [] 0x1000 =
    .ok (some [⟨0x1000, [0x1010, 0x1020, 0]⟩, ⟨0x1010, [0x1010, 0x500, 0]⟩, ⟨0x1020, [0x1010, 0]⟩], none) := by decide +kernel

theorem sample_usual : Usual sampleDis sampleFdes := by
  intro a ins h
  rw [code] at h
  cases hd : sampleFdes.find? fun d => address d = a with
  | none => rw [hd] at h; simp at h
  | some d =>
    rw [hd] at h
    change (sampleDis a d.length).toOption = some ins at h
    unfold sampleDis at h
    split at h
    · obtain rfl : [c!"callq 1010", c!"callq 1020", c!"callq 1010"] = ins := by simpa [Except.toOption] using h
      decide +kernel
    split at h
    · obtain rfl : [c!"callq 1010", c!"callq 500", c!"callq 500"] = ins := by simpa [Except.toOption] using h
      decide +kernel
    split at h
    · obtain rfl : [c!"nop", c!"callq 1010", c!"callq 1010", c!"ret"] = ins := by simpa [Except.toOption] using h
      decide +kernel
    split at h
    · obtain rfl : [c!"callq 1000", c!"callq 1000"] = ins := by simpa [Except.toOption] using h
      decide +kernel
    · simp [Except.toOption] at h

/-- C86 holds for the sample: its hypotheses are met. -/
example := C86_reached_partial sampleDis sampleFdes [] 0x1000 sample_usual (by simp [Closed, addresses])
  (.inr ⟨_, (by decide +kernel : code sampleDis sampleFdes 0x1000 = some [c!"callq 1010", c!"callq 1020", c!"callq 1010"])⟩)
example : ∃ m, grow sampleDis sampleFdes [] 0x500 = .ok (none, some m) :=
  C86_failure_partial _ _ _ _ sample_usual (by simp [addresses]) (by
    rintro ⟨ins, h⟩
    have : code sampleDis sampleFdes 0x500 = none := by decide +kernel
    rw [this] at h
    simp at h)

/-- C86 does not hold for a function that calls the address 0: what it calls for the first time after that is not added,
although it is a function and is called. -/
theorem C86_not_zero : ∃ (dis : Disassembler) (fdes : List Fde) (g : List Node), grow dis fdes [] 0x10 = .ok (some g, none) ∧
    Calls dis fdes 0x10 0x20 ∧ IsFunction dis fdes 0x20 ∧ 0x20 ∉ addresses g := by
  let dis : Disassembler := fun a _ =>
    if a = 0x10 then .ok [c!"callq 0", c!"callq 0", c!"callq 20"] else .ok [c!"callq 10", c!"callq 10"]
  let fdes : List Fde := [⟨0, 0x10, 16⟩, ⟨0, 0x20, 16⟩]
  exact ⟨dis, fdes, [⟨0x10, [0, 0x20, 0]⟩], by decide +kernel,
    ⟨[c!"callq 0", c!"callq 0", c!"callq 20"], by decide +kernel, by decide +kernel⟩,
    ⟨[c!"callq 10", c!"callq 10"], by decide +kernel⟩, by decide +kernel⟩

/-- The node `n` describes the function `d`: its address is the one of the function, and the callees are the different call
targets of the instructions there, and the terminating zero. -/
def NodeOf (dis : Disassembler) (d : Fde) (n : Node) : Prop :=
  n.address = address d ∧ ∃ ins, dis (address d) d.length = .ok ins ∧ n.callees = firsts (targets ins) ++ [0]

theorem computeFrom_spec (dis : Disassembler) (acc : List Node) (l : List Fde)
    (hb : ∀ d ∈ l, d.execBase = 0 ∧ d.start < 2 ^ 64)
    (hd : ∀ d ∈ l, ∃ ins, dis (address d) d.length = .ok ins ∧ ¬ (targets ins).Nodup) :
    ∃ g, computeFrom dis acc l = .ok (.ok (acc ++ g)) ∧ List.Forall₂ (NodeOf dis) l g := by
  induction l generalizing acc with
  | nil => exact ⟨[], by simp [computeFrom], .nil⟩
  | cons d l ih =>
    obtain ⟨ins, h1, h2⟩ := hd d (by simp)
    obtain ⟨h3, h4⟩ := hb d (by simp)
    have ha : address d = d.start := by rw [address, h3, Nat.add_zero, Nat.mod_eq_of_lt h4]
    have h1' := h1
    rw [ha] at h1'
    obtain ⟨g, hg, hf⟩ := ih (acc ++ [{ address := d.start, callees := firsts (targets ins) ++ [0] }])
      (fun e he => hb e (by simp [he])) (fun e he => hd e (by simp [he]))
    refine ⟨{ address := d.start, callees := firsts (targets ins) ++ [0] } :: g, ?_, .cons ⟨ha.symm, ins, h1, rfl⟩ hf⟩
    rw [computeFrom, h1']
    dsimp only
    rw [C58_addresses_partial ins h2, Out.bind_ok, hg]
    simp

/-- C87: if the functions are not relocated, the call graph of all functions has one node for each of them, in the same order,
with the address of the function and its call targets; and with every function it has those it calls. -/
theorem C87_all_partial (dis : Disassembler) (l : List Fde) (hb : ∀ d ∈ l, d.execBase = 0 ∧ d.start < 2 ^ 64)
    (hd : ∀ d ∈ l, ∃ ins, dis (address d) d.length = .ok ins ∧ ¬ (targets ins).Nodup) :
    ∃ g, compute dis l = .ok (.ok g) ∧ List.Forall₂ (NodeOf dis) l g ∧ Closed dis l g := by
  obtain ⟨g, h1, h2⟩ := computeFrom_spec dis [] l hb hd
  have ha : addresses g = l.map address := by
    clear h1 hb hd
    induction h2 with
    | nil => rfl
    | cons h _ ih => rw [addresses, List.map_cons, List.map_cons, h.1]; exact congrArg _ ih
  refine ⟨g, h1, h2, ?_⟩
  intro a _ b _ ⟨ins, hi⟩
  rw [ha]
  rw [code] at hi
  cases hf : l.find? fun d => address d = b with
  | none => rw [hf] at hi; simp at hi
  | some d => exact List.mem_map.2 ⟨d, List.mem_of_find?_eq_some hf, by simpa using List.find?_some hf⟩

/-- C87: if a function cannot be disassembled, the message of the first such function is the result. -/
theorem C87_failure (dis : Disassembler) (l l' : List Fde) (d : Fde) (e : Str) (hd : dis d.start d.length = .error e)
    (hl : ∀ d ∈ l, ∃ ins, dis d.start d.length = .ok ins ∧ ¬ (targets ins).Nodup) :
    compute dis (l ++ d :: l') = .ok (.error e) := by
  unfold compute
  generalize ([] : List Node) = acc
  induction l generalizing acc with
  | nil => rw [List.nil_append, computeFrom, hd]
  | cons c l ih =>
    obtain ⟨ins, h1, h2⟩ := hl c (by simp)
    rw [List.cons_append, computeFrom, h1]
    dsimp only
    rw [C58_addresses_partial ins h2, Out.bind_ok]
    exact ih (fun d hd => hl d (by simp [hd])) _

/-- C87 does not hold for functions that are relocated, as they are in every file read by this library whose code is not loaded
at 0: the nodes have addresses at which no function starts, so that the start of a function, and every call target, is looked
for in vain. -/
theorem C87_not_relocated : ∃ g, compute (fun _ _ => .ok [c!"callq 1000", c!"callq 1000"]) [⟨0x1000, 0, 16⟩] = .ok (.ok g) ∧
    (∀ n ∈ g, ∀ d ∈ ([⟨0x1000, 0, 16⟩] : List Fde), n.address ≠ address d) ∧ (∀ n ∈ g, n.callees = [0x1000, 0]) ∧
    find 0x1000 g = none := by
  exact ⟨[⟨0, [0x1000, 0]⟩], by decide +kernel, by decide +kernel, by decide +kernel, by decide +kernel⟩

example := C87_all_partial (fun _ _ => .ok [c!"callq 10", c!"callq 10"]) [⟨0, 0x10, 16⟩, ⟨0, 0x20, 16⟩] (by decide)
  (fun _ _ => ⟨_, rfl, by decide +kernel⟩)

end Satyr.Callgraph
