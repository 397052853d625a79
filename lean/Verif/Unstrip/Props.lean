import Verif.Unstrip.Model
import Verif.Lookup
/-!
# C55 (mappings), C66, C68: the output of eu-unstrip
-/
namespace Satyr.Unstrip
open Satyr.CStr Satyr.Frames Satyr.Normalize

/-! ## C55: looking up addresses -/

/-- C55: the mapping found is the first one that contains the address; there is none exactly if no mapping contains it. This
holds for mappings that end below 2^64. -/
theorem C55_unstrip_partial (l : List Entry) (address : Nat) (h : ∀ e ∈ l, e.start + e.length < 2 ^ 64) :
    (∀ e, findAddress address l = some e ↔ FirstWith (fun e => e.start ≤ address ∧ address < e.start + e.length) l e) ∧
    (findAddress address l = none ↔ ∀ e ∈ l, ¬ (e.start ≤ address ∧ address < e.start + e.length)) := by
  have key := firstWith_loop (fun e : Entry => e.start ≤ address ∧ address < (e.start + e.length) % 2 ^ 64) (findAddress address)
    rfl (fun e l => by rw [findAddress]) l
  have hm : ∀ e ∈ l, (e.start + e.length) % 2 ^ 64 = e.start + e.length := fun e he => Nat.mod_eq_of_lt (h e he)
  have hiff : ∀ e ∈ l, (e.start ≤ address ∧ address < (e.start + e.length) % 2 ^ 64) ↔
      (e.start ≤ address ∧ address < e.start + e.length) := fun e he => by rw [hm e he]
  exact ⟨fun e => (key.1 e).trans (firstWith_congr hiff), key.2.trans
    ⟨fun hh e he hx => hh e he ((hiff e he).2 hx), fun hh e he hx => hh e he ((hiff e he).1 hx)⟩⟩

example : ∀ e ∈ [({ start := 0x400000, length := 0x1000 } : Entry)], e.start + e.length < 2 ^ 64 := by decide

/-- C55 does not hold for a mapping at the end of the address space: its end is computed as 0, so that no address is found in
it. -/
theorem C55_not_unstrip_end (e : Entry) (h1 : e.start + e.length = 2 ^ 64) (address : Nat) : findAddress address [e] = none := by
  rw [findAddress, h1, if_neg (by simp)]
  rfl

example : ∃ e : Entry, e.start + e.length = 2 ^ 64 ∧ e.length > 0 := ⟨{ start := 2 ^ 64 - 4096, length := 4096 }, by decide⟩

/-! ## C66: reading the text -/

/-- A line of the output of `eu-unstrip -n`: start and size, build ID with or without its address, file, debugging file and
module; or any line that does not start with `0x`. -/
inductive Line where
  | entry (e : Entry) (at_ debug : Str)
  | other (text : Str)

/-- The text of a line. -/
def Line.text : Line → Str
  | .entry e at_ debug =>
    c!"0x" ++ natHex e.start ++ c!"+0x" ++ natHex e.length ++ c!" " ++ e.buildId ++ at_ ++ c!" " ++ e.fileName ++ c!" " ++ debug ++
      c!" " ++ e.modName ++ c!"\n"
  | .other text => text ++ c!"\n"

/-- The lines of the expected form: numbers of 64 bits, a build ID of hexadecimal digits, and fields that are not empty and
contain no white space. -/
def Line.WF : Line → Prop
  | .entry e at_ debug =>
    e.start < 2 ^ 64 ∧ e.length < 2 ^ 64 ∧ (∀ c ∈ e.buildId, IsHex c = true) ∧ NoSpace at_ ∧ IsHex (peek at_) = false ∧
    e.buildId ++ at_ ≠ [] ∧
    NoSpace e.fileName ∧ e.fileName ≠ [] ∧ NoSpace debug ∧ debug ≠ [] ∧ NoSpace e.modName ∧ e.modName ≠ []
  | .other text => '\n' ∉ text ∧ startsWith text c!"0x" = false

/-- The entry of a line. -/
def Line.entry? : Line → Option Entry
  | .entry e _ _ => some e
  | .other _ => none

theorem xdigit_hex : isXdigit = IsHex := span16

theorem eatLine_line (a rest : Str) (h : '\n' ∉ a) : eatLine (a ++ '\n' :: rest) = rest := by
  rw [eatLine, (takeWhile_append_stop (p := fun c => decide (c ≠ '\n')) (a := a) (b := '\n' :: rest)
    (fun c hc => by simp; rintro rfl; exact h hc) rfl).2]
  rfl

theorem scan_line (start length : Nat) (h1 : start < 2 ^ 64) (h2 : length < 2 ^ 64) (rest : Str)
    (hr : isSpace (peek rest) = false) :
    scanRange (c!"0x" ++ (natHex start ++ (c!"+0x" ++ (natHex length ++ (' ' :: rest))))) = some (start, length, rest) := by
  obtain ⟨a1, a2, a3⟩ := natHex_spec start
  obtain ⟨b1, b2, b3⟩ := natHex_spec length
  have e1 : scanHex (natHex start ++ (c!"+0x" ++ (natHex length ++ (' ' :: rest)))) =
      some (start, c!"+0x" ++ (natHex length ++ (' ' :: rest))) := by
    have := scanHex_digits [] (natHex start) (c!"+0x" ++ (natHex length ++ (' ' :: rest))) false (by simp) a1 a2 (by rwa [a3])
      (show digitVal '+' ≥ 16 by decide) (show '+' ≠ 'x' ∧ '+' ≠ 'X' by decide)
    rw [a3] at this
    exact this
  have e2 : scanHex (natHex length ++ (' ' :: rest)) = some (length, ' ' :: rest) := by
    have := scanHex_digits [] (natHex length) (' ' :: rest) false (by simp) b1 b2 (by rwa [b3])
      (show digitVal ' ' ≥ 16 by decide) (show ' ' ≠ 'x' ∧ ' ' ≠ 'X' by decide)
    rw [b3] at this
    exact this
  unfold scanRange
  have hd : (c!"0x" ++ (natHex start ++ (c!"+0x" ++ (natHex length ++ (' ' :: rest))))).drop 2 =
    natHex start ++ (c!"+0x" ++ (natHex length ++ (' ' :: rest))) := rfl
  have hd2 : (c!"+0x" ++ (natHex length ++ (' ' :: rest))).drop 3 = natHex length ++ (' ' :: rest) := rfl
  have p1 : startsWith (c!"0x" ++ (natHex start ++ (c!"+0x" ++ (natHex length ++ (' ' :: rest))))) c!"0x" = true := by
    simp [startsWith]
  have p2 : startsWith (c!"+0x" ++ (natHex length ++ (' ' :: rest))) c!"+0x" = true := by
    simp [startsWith]
  have e3 : skipWs (' ' :: rest) = rest := skipWs_append (w := [' ']) (by decide) hr
  rw [if_pos p1, hd, e1]
  dsimp only
  rw [if_pos p2, hd2, e2]
  dsimp only
  rw [e3]

theorem field_blank {a s : Str} (ha : NoSpace a) (hs : isSpace (peek s) = false) :
    (a ++ ' ' :: s).takeWhile (fun c => !isSpace c) = a ∧ skipWs (skipNonWs (a ++ ' ' :: s)) = s := by
  have := field ha (s := ' ' :: s) (Or.inr rfl)
  rw [this.2]
  exact ⟨this.1, skipWs_append (w := [' ']) (by decide) hs⟩

theorem parse_fields (e : Entry) (at_ debug rest : Str) (h : (Line.entry e at_ debug).WF) :
    parseFields e.start e.length (e.buildId ++ (at_ ++ (' ' :: (e.fileName ++ (' ' :: (debug ++ (' ' :: (e.modName ++ '\n' :: rest)))))))) =
      (e, '\n' :: rest) := by
  obtain ⟨-, -, h3, h4, h5, h6, h7, h8, h9, h10, h11, h12⟩ := h
  have x1 := takeWhile_append_stop (p := isXdigit) (a := e.buildId)
    (b := at_ ++ (' ' :: (e.fileName ++ (' ' :: (debug ++ (' ' :: (e.modName ++ '\n' :: rest))))))) (by rwa [xdigit_hex])
    (by
      rw [xdigit_hex]
      cases at_ with
      | nil => rfl
      | cons c a => exact h5)
  have x2 := field_blank h4 (s := e.fileName ++ (' ' :: (debug ++ (' ' :: (e.modName ++ '\n' :: rest))))) (h7.peek h8 _)
  have x3 := field_blank h7 (s := debug ++ (' ' :: (e.modName ++ '\n' :: rest))) (h9.peek h10 _)
  have x4 := field_blank h9 (s := e.modName ++ '\n' :: rest) (h11.peek h12 _)
  have x5 := field h11 (s := '\n' :: rest) (Or.inr rfl)
  unfold parseFields
  simp only [x1.1, x1.2, x2.2, x3.1, x3.2, x4.2, x5.1, x5.2]

theorem line_cons (l : Line) (rest : Str) (h : l.WF) (fuel : Nat) :
    parseLoop (fuel + 1) (l.text ++ rest) = l.entry?.toList ++ parseLoop fuel rest := by
  cases l with
  | entry e at_ debug =>
    have hw := h
    obtain ⟨h1, h2, h3, h4, h5, h6, h7, h8, h9, h10, h11, h12⟩ := h
    have et : (Line.entry e at_ debug).text ++ rest = c!"0x" ++ (natHex e.start ++ (c!"+0x" ++ (natHex e.length ++ (' ' ::
        (e.buildId ++ (at_ ++ (' ' :: (e.fileName ++ (' ' :: (debug ++ (' ' :: (e.modName ++ '\n' :: rest)))))))))))) := by
      simp [Line.text]
    have hp : isSpace (peek (e.buildId ++ (at_ ++ (' ' :: (e.fileName ++ (' ' :: (debug ++ (' ' :: (e.modName ++ '\n' :: rest))))))))) = false := by
      rw [← List.append_assoc]
      refine NoSpace.peek (fun c hc => ?_) h6 _
      rcases List.mem_append.1 hc with hc | hc
      · exact (hex_char (h3 c hc)).2.1
      · exact h4 c hc
    rw [et, parseLoop, if_neg (by simp), scan_line _ _ h1 h2 _ hp]
    dsimp only
    rw [parse_fields e at_ debug rest hw]
    rfl
  | other text =>
    obtain ⟨h1, h2⟩ := h
    have et : (Line.other text).text ++ rest = text ++ '\n' :: rest := by simp [Line.text]
    have hs : scanRange (text ++ '\n' :: rest) = none := by
      unfold scanRange
      rw [if_neg]
      intro hh
      rcases text with _ | ⟨a, _ | ⟨b, t⟩⟩
      · simp [startsWith] at hh
      · simp [startsWith] at hh
      · have : startsWith (a :: b :: t) c!"0x" = true := by simpa [startsWith] using hh
        rw [this] at h2; cases h2
    rw [et, parseLoop, if_neg (by simp), hs]
    dsimp only
    rw [eatLine_line _ _ h1]
    rfl

/-- C66: from a text of lines of the expected form and of other lines, exactly the entries of the former are read, in order. -/
theorem C66_lines (ls : List Line) (h : ∀ l ∈ ls, l.WF) : parse (ls.flatMap Line.text) = ls.filterMap Line.entry? := by
  have key : ∀ fuel, (ls.flatMap Line.text).length < fuel → parseLoop fuel (ls.flatMap Line.text) = ls.filterMap Line.entry? := by
    induction ls with
    | nil => intro fuel hf; cases fuel <;> rfl
    | cons l ls ih =>
      intro fuel hf
      have hl : 0 < l.text.length := by cases l <;> simp [Line.text]
      cases fuel with
      | zero => omega
      | succ fuel =>
        rw [List.flatMap_cons] at hf ⊢
        rw [line_cons l _ (h l (by simp)), ih (fun x hx => h x (by simp [hx])) fuel (by rw [List.length_append] at hf; omega)]
        cases hl : l.entry? with
        | none => rw [List.filterMap_cons_none hl]; rfl
        | some e => rw [List.filterMap_cons_some hl]; rfl
  exact key _ (Nat.lt_succ_self _)

example : ∀ l ∈ [Line.entry { start := 0x400000, length := 0x207000, buildId := c!"2818b2009547", fileName := c!"/bin/sleep",
                              modName := c!"[exe]" } c!"@0x400284" c!"-", .other c!"x"], l.WF := by
  intro l hl
  simp only [List.mem_cons, List.not_mem_nil, or_false] at hl
  rcases hl with rfl | rfl
  · refine ⟨by decide, by decide, by decide, by decide, by decide, by decide, by decide, by decide, by decide, by decide,
      by decide, by decide⟩
  · exact ⟨by decide, by decide⟩

/-- C66 needs lines of the expected form: a line that ends after the build ID takes its file name from the next line, and the
entry of the next line is lost. -/
theorem C66_not_truncated : parse c!"0x1+0x2 ab\n0x3+0x4 cd /bin/sh - sh\n" =
    [{ start := 1, length := 2, buildId := c!"ab", fileName := c!"0x3+0x4", modName := c!"/bin/sh" }] := by decide +kernel

/-! ## C68: core stack traces from gdb stack traces -/

/-- C68 does not hold: a null pointer is read for every thread that has frames. -/
theorem createFrames_ub (u : List Entry) (l : List GdbFrame) (h : l ≠ []) : createFrames u l = .ub := by
  induction l with
  | nil => exact absurd rfl h
  | cons f l ih =>
    cases l with
    | nil => rfl
    | cons g l =>
      rw [createFrames, ih (by simp)]
      rfl

/-- C68 does not hold: a core stack trace cannot be made from a gdb stack trace with any frame; a null pointer is read. -/
theorem C68_not_any (gdb : GdbTrace) (text : Str) (hu : parse text ≠ []) (h : ∃ t ∈ gdb.threads, t.frames ≠ []) :
    create gdb text = .ub := by
  obtain ⟨t, ht, hf⟩ := h
  unfold create
  rw [if_neg hu]
  have : createThreads (parse text) gdb.threads = .ub := by
    generalize gdb.threads = l at ht
    induction l with
    | nil => simp at ht
    | cons x l ih =>
      rw [createThreads]
      by_cases hx : x.frames = []
      · rw [hx]
        rcases List.mem_cons.1 ht with rfl | ht
        · exact absurd hx hf
        · rw [ih ht]; rfl
      · rw [createFrames_ub _ _ hx]; rfl
  rw [this]
  rfl

/-- C68: without frames the threads are kept, and without mappings nothing is made. -/
theorem C68_no_frames_partial (gdb : GdbTrace) (text : Str) :
    (parse text = [] → create gdb text = .ok none) ∧
    (parse text ≠ [] → (∀ t ∈ gdb.threads, t.frames = []) →
      create gdb text = .ok (some { threads := gdb.threads.map fun _ => { frames := [] } })) := by
  constructor
  · intro h; unfold create; rw [if_pos h]
  · intro hu h
    unfold create
    rw [if_neg hu]
    have : createThreads (parse text) gdb.threads = .ok (gdb.threads.map fun _ => { frames := [] }) := by
      generalize gdb.threads = l at h
      induction l with
      | nil => rfl
      | cons x l ih =>
        rw [createThreads, h x (by simp), ih fun y hy => h y (by simp [hy])]
        rfl
    rw [this]
    rfl

/-- C68: the core frame made from a gdb frame has its address, the name of its function unless the name is unknown, and the
build ID, file name and offset of the first mapping that contains the address, if there is one. (By `C68_not_any` no such frame
is ever returned.) -/
theorem C68_frame_partial (u : List Entry) (f : GdbFrame) (h : ∀ e ∈ u, e.start + e.length < 2 ^ 64) :
    let c := coreFrame u f
    let inside := fun e : Entry => e.start ≤ f.address ∧ f.address < e.start + e.length
    c.address = f.address ∧ (∀ n, c.functionName = some n ↔ f.functionName = some n ∧ n ≠ c!"??") ∧
    (∀ e, FirstWith inside u e → c.buildId = some e.buildId ∧ c.fileName = some e.fileName ∧ e.start + c.buildIdOffset = f.address) ∧
    ((∀ e ∈ u, ¬ inside e) → c.buildId = none ∧ c.fileName = none ∧ c.buildIdOffset = 2 ^ 64 - 1) := by
  intro c inside
  obtain ⟨h1, h2⟩ := C55_unstrip_partial u f.address h
  have hl : ∀ e : Entry, inside e → e ∈ u → e.start + (f.address + 2 ^ 64 - e.start) % 2 ^ 64 = f.address := by
    intro e he hu
    have h3 := h e hu
    obtain ⟨h4, h5⟩ := he
    omega
  have hn : ∀ d : CoreFrame, d.functionName = none → ∀ n,
      (match f.functionName with
        | none => d
        | some n => if n ≠ c!"??" then { d with functionName := some n } else d).functionName = some n ↔
      f.functionName = some n ∧ n ≠ c!"??" := by
    intro d hd n
    cases f.functionName with
    | none => simp [hd]
    | some m =>
      dsimp only
      split
      · next hm => simp only [Option.some.injEq]; exact ⟨fun e => ⟨e, e ▸ hm⟩, fun e => e.1⟩
      · next hm =>
        rw [ne_eq, not_not] at hm
        simp only [hd, Option.some.injEq, reduceCtorEq, false_iff]
        rintro ⟨rfl, h⟩
        exact h hm
  cases hf : findAddress f.address u with
  | none =>
    have hno := h2.1 hf
    have hc : c = coreFrame u f := rfl
    unfold coreFrame at hc
    rw [hf] at hc
    dsimp only at hc
    refine ⟨?_, ?_, fun e he => ?_, fun _ => ?_⟩
    · rw [hc]; split <;> [rfl; (split <;> rfl)]
    · rw [hc]; exact hn _ rfl
    · obtain ⟨b, a, rfl, e3, -⟩ := he
      exact absurd e3 (hno e (by simp))
    · rw [hc]; split <;> [exact ⟨rfl, rfl, rfl⟩; (split <;> exact ⟨rfl, rfl, rfl⟩)]
  | some e =>
    have he := (h1 e).1 hf
    have hc : c = coreFrame u f := rfl
    unfold coreFrame at hc
    rw [hf] at hc
    dsimp only at hc
    have hm : e ∈ u ∧ inside e := by
      obtain ⟨b, a, rfl, e3, -⟩ := he
      exact ⟨by simp, e3⟩
    refine ⟨?_, ?_, fun e' he' => ?_, fun hno => absurd hm.2 (hno e hm.1)⟩
    · rw [hc]; split <;> [rfl; (split <;> rfl)]
    · rw [hc]; exact hn _ rfl
    · have := (h1 e').2 he'
      rw [hf] at this
      injection this with this
      subst this
      have hk := hl e hm.2 hm.1
      rw [hc]; split <;> [exact ⟨rfl, rfl, hk⟩; (split <;> exact ⟨rfl, rfl, hk⟩)]

example : (coreFrame [{ start := 0x400000, length := 0x1000, buildId := c!"ab", fileName := c!"/bin/sh" }]
    { address := 0x400123, functionName := some c!"main" }).buildIdOffset = 0x123 := by decide +kernel

example : ∃ (gdb : GdbTrace) (text : Str), parse text ≠ [] ∧ ∃ t ∈ gdb.threads, t.frames ≠ [] :=
  ⟨{ threads := [{ frames := [{ functionName := some c!"main" }] }] }, c!"0x1+0x2 ab /bin/sh - sh\n", by decide +kernel,
    _, List.mem_singleton.2 rfl, by simp⟩

end Satyr.Unstrip
