import Verif.Elf.Model
import Verif.Json.Lemmas
import Mathlib.Data.List.Forall2
/-!
# Properties of reading ELF files

C88: the functions of a file; C89: looking functions up; C90: the procedure linkage table; C91: the JSON form of functions.
-/
namespace Satyr.Elf
open Satyr.CStr Satyr.Json

/-! ## Specification -/

/-- A number in `n` bytes, lowest byte first. -/
def le : Nat → Nat → List Nat
  | 0, _ => []
  | n + 1, v => v % 256 :: le n (v / 256)

/-- The section with the given name: all sections before it have a header and another name. -/
def HasSection (f : File) (name : Str) (i : Nat) (s : Section) (d : Data) : Prop :=
  f.names = true ∧ ∃ before after, f.sections = before ++ s :: after ∧ i = before.length + 1 ∧
    (∀ x ∈ before, x.header = true ∧ ∃ n, x.name = some n ∧ n ≠ name) ∧
    s.header = true ∧ s.name = some name ∧ s.data = some d

/-- The first executable segment that is loaded is loaded at `base`. -/
def LoadedAt (f : File) (base : Nat) : Prop :=
  ∃ before s after, f.segments = some (before ++ s :: after) ∧
    (∀ x ∈ before, x.header = true ∧ ¬ (x.load = true ∧ x.executable = true)) ∧
    s.header = true ∧ s.load = true ∧ s.executable = true ∧ s.vaddr = base ∧ base < 2 ^ 64 - 1

/-- How many bytes a pointer has, by its encoding (its lowest four bits): a native pointer, 2, 4 or 8 bytes, signed or not;
the other encodings (LEB128) have no fixed size. -/
def pointerSize (class32 : Bool) (encoding : Nat) : Option Nat :=
  match encoding % 16 with
  | 0 | 8 => some (if class32 then 4 else 8)
  | 2 | 10 => some 2
  | 3 | 11 => some 4
  | 4 | 12 => some 8
  | _ => none

/-- The letters of the augmentation of a CIE, the data, and the encoding of the pointers of its functions: the letter `R` gives
the encoding, `L` the encoding of a pointer that is stored elsewhere, and `P` an encoding and a pointer. Without `R` the encoding
is 0, a native pointer. -/
inductive Letters (class32 : Bool) : Str → List Nat → Nat → Prop
  | none (data : List Nat) : Letters class32 [] data 0
  | R (l : Str) (e : Nat) (data : List Nat) : Letters class32 ('R' :: l) (e :: data) e
  | L {l : Str} {b e : Nat} {data : List Nat} : Letters class32 l data e → Letters class32 ('L' :: l) (b :: data) e
  | P {l : Str} {b e : Nat} {pointer data : List Nat} : pointerSize class32 b = some pointer.length →
      Letters class32 l data e → Letters class32 ('P' :: l) (b :: (pointer ++ data)) e

/-- The encoding of the pointers of the functions of a CIE. The letter `z` may come first. -/
def Encoding (class32 : Bool) (c : CieEntry) (e : Nat) : Prop :=
  Letters class32 c.augmentation c.data e ∨ ∃ l, c.augmentation = 'z' :: l ∧ Letters class32 l c.data e

/-- A function: the address of its first instruction, and its length. -/
structure Func where
  addr : Nat
  length : Nat
  deriving DecidableEq, Repr

/-- What is stored for the address `addr`: itself, or its distance from the place where it is stored (bits 4 to 6 of the
encoding are 1). -/
def Stored (encoding place addr v : Nat) : Prop :=
  if encoding / 16 % 8 = 1 then (v + place) % 2 ^ 64 = addr else encoding / 16 % 8 = 0 ∧ v = addr

/-- The FDE of a function, with pointers of `n` bytes: at `offset` in the section there is a length of 4 bytes, then the CIE in
4 bytes, then the address and length of the function. A stored distance is kept modulo `2 ^ (8 n)`. -/
def IsFde (sec : Section) (data : Data) (encoding n offset : Nat) (e : FdeEntry) (g : Func) : Prop :=
  (∃ v r, Stored encoding (sec.addr + offset + 8) g.addr v ∧ (encoding / 16 % 8 = 0 → v < 256 ^ n) ∧
    e.start = le n v ++ (le n g.length ++ r)) ∧
  g.addr < 2 ^ 64 ∧ g.length < 256 ^ n ∧
  ∃ len r, data.bytes.drop offset = le 4 len ++ r ∧ len < 2 ^ 32 - 1

/-- The entries describe the functions, in this order: `known` are the offsets and encodings of the CIEs before. -/
inductive Describes (class32 : Bool) (sec : Section) (data : Data) : List (Nat × Nat) → List (Nat × Entry) → List Func → Prop
  | nil (known : List (Nat × Nat)) : Describes class32 sec data known [] []
  | cie {known : List (Nat × Nat)} {offset e : Nat} {c : CieEntry} {l : List (Nat × Entry)} {fs : List Func} :
      Encoding class32 c e → (pointerSize class32 e = some 4 ∨ pointerSize class32 e = some 8) →
      offset ∉ known.map Prod.fst → Describes class32 sec data (known ++ [(offset, e)]) l fs →
      Describes class32 sec data known ((offset, .cie c) :: l) fs
  | fde {known : List (Nat × Nat)} {offset e n : Nat} {d : FdeEntry} {g : Func} {l : List (Nat × Entry)} {fs : List Func} :
      (d.cie, e) ∈ known → pointerSize class32 e = some n → IsFde sec data e n offset d g → Describes class32 sec data known l fs →
      Describes class32 sec data known ((offset, .fde d) :: l) (g :: fs)
  | skipped {known : List (Nat × Nat)} {offset : Nat} {l : List (Nat × Entry)} {fs : List Func} :
      Describes class32 sec data known l fs → Describes class32 sec data known ((offset, .skipped) :: l) fs

/-- The function that was read has the address and length of `g`. -/
def Is (base : Nat) (d : Fde) (g : Func) : Prop :=
  d.execBase = base ∧ (d.start + base) % 2 ^ 64 = g.addr ∧ d.length = g.length

/-! ## Reading -/

theorem findFrom_eq (name : Str) (s : Section) (d : Data) (before after : List Section) (i : Nat)
    (hb : ∀ x ∈ before, x.header = true ∧ ∃ n, x.name = some n ∧ n ≠ name) (h : s.header = true) (hn : s.name = some name)
    (hd : s.data = some d) : findFrom name i (before ++ s :: after) = some (i + before.length, s, d) := by
  induction before generalizing i with
  | nil => rw [List.nil_append, findFrom, if_neg (by simp [h]), hn]; dsimp only; rw [if_pos rfl, hd]; rfl
  | cons x l ih =>
    obtain ⟨h1, n, h2, h3⟩ := hb x (by simp)
    rw [List.cons_append, findFrom, if_neg (by simp [h1]), h2]
    dsimp only
    rw [if_neg h3, ih (i + 1) (fun y hy => hb y (by simp [hy]))]
    simp only [List.length_cons]
    congr 2
    omega

theorem HasSection.find {f : File} {name : Str} {i : Nat} {s : Section} {d : Data} (h : HasSection f name i s d) :
    findSection f name = some (i, s, d) := by
  obtain ⟨h1, before, after, h2, h3, h4, h5, h6, h7⟩ := h
  rw [findSection, if_pos h1, h2, findFrom_eq name s d before after 1 h4 h5 h6 h7, h3, Nat.add_comm]

theorem LoadedAt.base {f : File} {base : Nat} (h : LoadedAt f base) : f.segments.bind execBase = some base := by
  obtain ⟨before, s, after, h1, h2, h3, h4, h5, h6, h7⟩ := h
  rw [h1]
  change execBase (before ++ s :: after) = _
  clear h1
  induction before with
  | nil => rw [List.nil_append, execBase, if_neg (by simp [h3]), if_pos ⟨h4, h5⟩, h6, if_neg (by omega)]
  | cons x l ih =>
    obtain ⟨h8, h9⟩ := h2 x (by simp)
    rw [List.cons_append, execBase, if_neg (by simp [h8]), if_neg h9]
    exact ih fun y hy => h2 y (by simp [hy])

theorem le_length (n v : Nat) : (le n v).length = n := by
  induction n generalizing v with
  | zero => rfl
  | succ n ih => rw [le, List.length_cons, ih]

theorem readBytes_le (n v : Nat) (r : List Nat) : readBytes (le n v ++ r) n = .ok (v % 256 ^ n) := by
  rw [readBytes, if_pos (by rw [List.length_append, le_length]; omega), List.take_left' (le_length n v)]
  congr 1
  induction n generalizing v with
  | zero => simp [le, Nat.mod_one]
  | succ n ih =>
    rw [le, List.foldr_cons, ih, Nat.pow_succ, Nat.mul_comm (256 ^ n), Nat.mod_mul]

theorem pointerSize_some (class32 : Bool) (e n : Nat) (h : pointerSize class32 e = some n) : encodedSize class32 e = n := by
  have h8 : e % 8 = e % 16 % 8 := by omega
  have hlt : e % 16 < 16 := Nat.mod_lt _ (by omega)
  rw [encodedSize, h8]
  rw [pointerSize] at h
  generalize e % 16 = x at h hlt ⊢
  rcases x with _ | _ | _ | _ | _ | _ | _ | _ | _ | _ | _ | _ | _ | _ | _ | _ | x <;>
    first | exact Option.some.inj h | exact absurd h (by simp)

theorem pointerSize_pos {class32 : Bool} {e n : Nat} (h : pointerSize class32 e = some n) : n ≠ 0 := by
  rw [pointerSize] at h
  split at h
  · cases class32 <;> simp at h <;> omega
  · cases class32 <;> simp at h <;> omega
  all_goals first | (simp at h; omega) | simp at h

/-- The CIE that is kept. -/
def keptCie (class32 : Bool) (offset e : Nat) : Cie :=
  { offset := offset, len := encodedSize class32 e, pcrel := e / 16 % 8 == 1 }

theorem cieLetters_eq {class32 : Bool} {l : Str} {data : List Nat} {e : Nat} (h : Letters class32 l data e) (offset : Nat)
    (hs : pointerSize class32 e = some 4 ∨ pointerSize class32 e = some 8) :
    cieLetters class32 offset l data = .ok (some (keptCie class32 offset e)) := by
  induction h with
  | none data => rw [cieLetters]; rfl
  | R l e data =>
    have : encodedSize class32 e = 4 ∨ encodedSize class32 e = 8 := hs.imp (pointerSize_some _ _ _) (pointerSize_some _ _ _)
    rw [cieLetters, if_pos rfl]
    change (if encodedSize class32 e ≠ 4 ∧ encodedSize class32 e ≠ 8 then _ else _) = _
    rw [if_neg (by omega)]
    rfl
  | L h ih => rw [cieLetters, if_neg (by decide), if_pos rfl]; exact ih hs
  | @P l b e pointer data hp h ih =>
    rw [cieLetters, if_neg (by decide), if_neg (by decide), if_pos rfl]
    change (if encodedSize class32 b = 0 then _ else _) = _
    rw [pointerSize_some _ _ _ hp, if_neg (pointerSize_pos hp), List.drop_succ_cons, List.drop_left]
    exact ih hs

theorem readCie_eq {class32 : Bool} {c : CieEntry} {e : Nat} (h : Encoding class32 c e) (offset : Nat)
    (hs : pointerSize class32 e = some 4 ∨ pointerSize class32 e = some 8) :
    readCie class32 offset c = .ok (some (keptCie class32 offset e)) := by
  rw [readCie]
  rcases h with h | ⟨l, h1, h2⟩
  · split
    next l' hl => 
      rw [hl] at h
      nomatch h
    next => exact cieLetters_eq h offset hs
  · rw [h1]
    exact cieLetters_eq h2 offset hs

theorem findCie_eq {class32 : Bool} {known : List (Nat × Nat)} {o e : Nat} (h : (o, e) ∈ known) (hn : (known.map Prod.fst).Nodup) :
    findCie o (known.map fun k => keptCie class32 k.1 k.2) = some (keptCie class32 o e) := by
  induction known with
  | nil => simp at h
  | cons k l ih =>
    rw [List.map_cons, findCie]
    rw [List.map_cons, List.nodup_cons] at hn
    rcases List.mem_cons.1 h with h | h
    · subst h; exact if_pos rfl
    · rw [if_neg, ih h hn.2]
      change o ≠ k.1
      rintro rfl
      exact hn.1 (List.mem_map.2 ⟨_, h, rfl⟩)

theorem readFde_eq {class32 : Bool} {sec : Section} {data : Data} {base offset e n : Nat} {known : List (Nat × Nat)}
    {d : FdeEntry} {g : Func} (hk : (d.cie, e) ∈ known) (hn : (known.map Prod.fst).Nodup) (hp : pointerSize class32 e = some n)
    (hs : n = 4 ∨ n = 8) (h : IsFde sec data e n offset d g) (hb : sec.addr = sec.offset + base) (hb' : base < 2 ^ 64)
    (hr : base ≤ g.addr ∧ g.addr < base + 2 ^ 32) :
    ∃ x, readFde sec data base offset (known.map fun k => keptCie class32 k.1 k.2) d = .ok (some x) ∧ Is base x g := by
  obtain ⟨⟨v, r, h1, h2, h3⟩, h4, h5, len, r', h6, h7⟩ := h
  have hlen : (keptCie class32 d.cie e).len = n := pointerSize_some _ _ _ hp
  rw [readFde, findCie_eq hk hn]
  dsimp only
  rw [hlen, h3, readBytes_le, Out.bind_ok, List.drop_left' (le_length n v), readBytes_le, Out.bind_ok, Nat.mod_eq_of_lt h5,
    startAddress, hlen, h6, readBytes_le]
  have hL : len % 256 ^ 4 = len := Nat.mod_eq_of_lt (by omega)
  rw [hL]
  rw [Stored] at h1
  by_cases hpc : e / 16 % 8 = 1
  · rw [if_pos hpc] at h1
    rw [if_pos (show (keptCie class32 d.cie e).pcrel = true by simp [keptCie, hpc])]
    refine ⟨_, rfl, rfl, ?_, rfl⟩
    have hnot : ¬ len = 2 ^ 32 - 1 := by omega
    dsimp only
    rw [if_neg hnot]
    rcases hs with rfl | rfl
    · rw [if_pos rfl]; omega
    · rw [if_neg (by omega)]; omega
  · rw [if_neg hpc] at h1
    obtain ⟨h0, rfl⟩ := h1
    rw [if_neg (show ¬ (keptCie class32 d.cie e).pcrel = true by simp [keptCie, hpc])]
    have hv := h2 h0
    refine ⟨_, rfl, rfl, ?_, rfl⟩
    dsimp only
    rw [Nat.mod_eq_of_lt hv]
    omega

theorem readEntries_eq {class32 : Bool} {sec : Section} {data : Data} {base : Nat} {known : List (Nat × Nat)}
    {l : List (Nat × Entry)} {fs : List Func} (h : Describes class32 sec data known l fs) (hn : (known.map Prod.fst).Nodup)
    (hk : ∀ k ∈ known, pointerSize class32 k.2 = some 4 ∨ pointerSize class32 k.2 = some 8)
    (hb : sec.addr = sec.offset + base) (hb' : base < 2 ^ 64)
    (hr : ∀ g ∈ fs, base ≤ g.addr ∧ g.addr < base + 2 ^ 32) (acc : List Fde) :
    ∃ ds, readEntries class32 sec data base (known.map fun k => keptCie class32 k.1 k.2) acc l = .ok (some (acc ++ ds)) ∧
      List.Forall₂ (Is base) ds fs := by
  induction h generalizing acc with
  | nil known => exact ⟨[], by simp [readEntries], .nil⟩
  | @cie known offset e c l fs h1 h2 h3 h4 ih =>
    rw [readEntries, readCie_eq h1 offset h2]
    obtain ⟨ds, h5, h6⟩ := ih (by
      rw [List.map_append, List.nodup_append]
      exact ⟨hn, by simp, fun x hx y hy => by
        have : y = offset := by simpa using hy
        subst this
        rintro rfl
        exact h3 hx⟩) (fun k hk' => by
      rcases List.mem_append.1 hk' with h | h
      · exact hk k h
      · rw [List.mem_singleton.1 h]; exact h2) hr acc
    refine ⟨ds, ?_, h6⟩
    rw [List.map_append] at h5
    exact h5
  | @fde known offset e n d g l fs h1 h2 h3 h4 ih =>
    have hs : n = 4 ∨ n = 8 := by
      rcases hk _ h1 with h | h <;> rw [h2, Option.some.injEq] at h
      · exact .inl h
      · exact .inr h
    obtain ⟨x, hx, hi⟩ := readFde_eq h1 hn h2 hs h3 hb hb' (hr g (by simp))
    rw [readEntries, hx]
    obtain ⟨ds, h5, h6⟩ := ih hn hk (fun g hg => hr g (by simp [hg])) (acc ++ [x])
    refine ⟨x :: ds, ?_, .cons hi h6⟩
    rw [List.append_assoc] at h5
    exact h5
  | skipped h ih => rw [readEntries]; exact ih hn hk hr acc

/-- C88: from a file whose entries describe functions, these functions are read, in the same order, with their addresses and
lengths: if the section with the descriptions has the same distance between its address and its place in the file as the code
(`sec.addr = sec.offset + base`), the code has at most 4 GiB, and the descriptions have the usual 4 byte long lengths. -/
theorem C88_functions_partial (f : File) (i : Nat) (sec : Section) (data : Data) (base : Nat) (fs : List Func)
    (hi : f.ident = true) (hs : HasSection f c!".eh_frame" i sec data) (hb : LoadedAt f base)
    (hd : Describes f.class32 sec data [] f.entries fs) (ha : sec.addr = sec.offset + base)
    (hr : ∀ g ∈ fs, base ≤ g.addr ∧ g.addr < base + 2 ^ 32) :
    ∃ ds, ehFrame f = .ok (some ds) ∧ List.Forall₂ (Is base) ds fs := by
  have hb' : base < 2 ^ 64 := by obtain ⟨_, _, _, _, _, _, _, _, _, h⟩ := hb; omega
  rw [ehFrame, if_neg (by simp [hi]), hs.find]
  dsimp only
  rw [hb.base]
  exact readEntries_eq hd (by simp) (by simp) ha hb' hr []

/-! ### Examples -/

/-- A file with code at `base`, the descriptions at `addr` and at `offset` in the file, and two functions, at 0x100 and 0x120
after `base`, described by a CIE with 4 byte long signed distances (encoding 0x1b). -/
def sampleFile (base addr offset : Nat) : File where
  sections := [{ name := some c!".text" },
    { name := some c!".eh_frame", addr := addr, offset := offset,
      data := some ⟨72, List.replicate 24 0 ++ (le 4 20 ++ (List.replicate 20 0 ++ (le 4 20 ++ List.replicate 20 0)))⟩ }]
  segments := some [{ load := true }, { load := true, executable := true, vaddr := base }]
  entries := [(0, .cie ⟨c!"zPR", [0x9b, 1, 2, 3, 4, 0x1b]⟩),
    (24, .fde ⟨0, le 4 (2 ^ 64 + base + 0x100 - (addr + 32)) ++ le 4 0x20⟩),
    (48, .fde ⟨0, le 4 (2 ^ 64 + base + 0x120 - (addr + 56)) ++ le 4 0x13⟩)]

def sampleData : Data := ⟨72, List.replicate 24 0 ++ (le 4 20 ++ (List.replicate 20 0 ++ (le 4 20 ++ List.replicate 20 0)))⟩

theorem sample_describes (base addr offset : Nat) (h1 : base < 2 ^ 63) (h2 : addr < 2 ^ 63) :
    Describes false { name := some c!".eh_frame", addr := addr, offset := offset, data := some sampleData } sampleData []
      (sampleFile base addr offset).entries [⟨base + 0x100, 0x20⟩, ⟨base + 0x120, 0x13⟩] := by
  refine .cie (e := 0x1b) (.inr ⟨_, rfl, .P (pointer := [1, 2, 3, 4]) rfl (.R _ _ _)⟩) (.inl rfl) (by simp)
    (.fde (e := 0x1b) (n := 4) (by simp) rfl ⟨⟨2 ^ 64 + base + 0x100 - (addr + 32), [], ?_, by simp, by simp only [List.append_nil]⟩,
      ?_, by simp, 20, sampleData.bytes.drop 28, ?_, by omega⟩
    (.fde (e := 0x1b) (n := 4) (by simp) rfl ⟨⟨2 ^ 64 + base + 0x120 - (addr + 56), [], ?_, by simp, by simp only [List.append_nil]⟩,
      ?_, by simp, 20, sampleData.bytes.drop 52, ?_, by omega⟩ (.nil _)))
  · rw [Stored, if_pos rfl]; dsimp only; omega
  · dsimp only; omega
  · rfl
  · rw [Stored, if_pos rfl]; dsimp only; omega
  · dsimp only; omega
  · rfl

theorem sample_loaded (base addr offset : Nat) (h : base < 2 ^ 63) : LoadedAt (sampleFile base addr offset) base :=
  ⟨[{ load := true }], { load := true, executable := true, vaddr := base }, [], rfl, by simp, rfl, rfl, rfl, rfl, by omega⟩

theorem sample_section (base addr offset : Nat) : HasSection (sampleFile base addr offset) c!".eh_frame" 2
    { name := some c!".eh_frame", addr := addr, offset := offset, data := some sampleData } sampleData :=
  ⟨rfl, [{ name := some c!".text" }], [], rfl, rfl, by simp, rfl, rfl, rfl⟩

/-- A program that is loaded at 0x400000 as a whole: the hypotheses of C88 are met. -/
example := C88_functions_partial (sampleFile 0x400000 0x402000 0x2000) 2 _ _ 0x400000 _ rfl (sample_section _ _ _)
  (sample_loaded _ _ _ (by omega)) (sample_describes _ _ _ (by omega) (by omega)) rfl (by simp)

example : ehFrame (sampleFile 0x400000 0x402000 0x2000) =
    .ok (some [⟨0x400000, 0x100, 0x20⟩, ⟨0x400000, 0x120, 0x13⟩]) := by decide +kernel

/-- C88 does not hold if the descriptions are not in the same segment as the code, as it is usual today (code loaded at 0x1000,
descriptions at 0x2000, which is also their place in the file): all functions get a wrong address. -/
theorem C88_not_other_segment : ∃ (f : File) (i : Nat) (sec : Section) (data : Data) (base : Nat) (fs : List Func) (ds : List Fde),
    HasSection f c!".eh_frame" i sec data ∧ LoadedAt f base ∧ Describes f.class32 sec data [] f.entries fs ∧
    (∀ g ∈ fs, base ≤ g.addr ∧ g.addr < base + 2 ^ 32) ∧ ehFrame f = .ok (some ds) ∧ ds.length = fs.length ∧ fs ≠ [] ∧
    ∀ d ∈ ds, ∀ g ∈ fs, ¬ Is base d g :=
  ⟨sampleFile 0x1000 0x2000 0x2000, 2, _, _, 0x1000, _, [⟨0x1000, 0x1100, 0x20⟩, ⟨0x1000, 0x1120, 0x13⟩], sample_section _ _ _,
    sample_loaded _ _ _ (by omega), sample_describes _ _ _ (by omega) (by omega), by simp, by decide +kernel, rfl, by simp,
    by simp [Is]⟩

/-- C88: for a description with relative addresses, the address that is read is off by the difference of the distances,
`sec.offset + base - sec.addr`. -/
theorem C88_shift (class32 : Bool) (sec : Section) (data : Data) (base offset e : Nat) (known : List (Nat × Nat)) (d : FdeEntry)
    (g : Func) (hk : (d.cie, e) ∈ known) (hn : (known.map Prod.fst).Nodup) (hp : pointerSize class32 e = some 8)
    (h : IsFde sec data e 8 offset d g) (hpc : e / 16 % 8 = 1) :
    ∃ x, readFde sec data base offset (known.map fun k => keptCie class32 k.1 k.2) d = .ok (some x) ∧
      (x.start + base + sec.addr) % 2 ^ 64 = (g.addr + base + sec.offset) % 2 ^ 64 := by
  obtain ⟨⟨v, r, h1, h2, h3⟩, h4, h5, len, r', h6, h7⟩ := h
  have hlen : (keptCie class32 d.cie e).len = 8 := pointerSize_some _ _ _ hp
  rw [readFde, findCie_eq hk hn]
  dsimp only
  rw [hlen, h3, readBytes_le, Out.bind_ok, List.drop_left' (le_length 8 v), readBytes_le, Out.bind_ok, Nat.mod_eq_of_lt h5,
    startAddress, hlen, h6, readBytes_le]
  have hL : len % 256 ^ 4 = len := Nat.mod_eq_of_lt (by omega)
  rw [hL]
  rw [Stored, if_pos hpc] at h1
  rw [if_pos (show (keptCie class32 d.cie e).pcrel = true by simp [keptCie, hpc])]
  refine ⟨_, rfl, ?_⟩
  have hnot : ¬ len = 2 ^ 32 - 1 := by omega
  dsimp only
  rw [if_neg hnot, if_neg (by omega)]
  omega

/-- C88 does not hold for descriptions with the long form of lengths (4 bytes `0xffffffff`, 8 bytes length, 8 bytes CIE, then
the address, 20 bytes after the beginning of the description): they are read as if the address were 24 bytes after it. -/
theorem C88_not_long : ∃ f : File,
    (∃ r, f.entries = [(0, .cie ⟨c!"zR", [0x1b]⟩), (24, .fde ⟨0, le 4 (2 ^ 64 + 0x400100 - (0x402000 + 24 + 20)) ++ r⟩)]) ∧
    LoadedAt f 0x400000 ∧ ehFrame f = .ok (some [⟨0x400000, 0x104, 0x20⟩]) := by
  let f : File :=
    { sections := [{ name := some c!".eh_frame", addr := 0x402000, offset := 0x2000,
                     data := some ⟨64, List.replicate 24 0 ++ (le 4 (2 ^ 32 - 1) ++ (le 8 28 ++ List.replicate 28 0))⟩ }]
      segments := some [{ load := true, executable := true, vaddr := 0x400000 }]
      entries := [(0, .cie ⟨c!"zR", [0x1b]⟩),
        (24, .fde ⟨0, le 4 (2 ^ 64 + 0x400100 - (0x402000 + 24 + 20)) ++ le 4 0x20⟩)] }
  exact ⟨f, ⟨_, rfl⟩, ⟨[], { load := true, executable := true, vaddr := 0x400000 }, [], rfl, by simp, rfl, rfl, rfl, rfl, by omega⟩,
    by decide +kernel⟩

/-- C88 does not hold for a CIE whose augmentation has more letters than data: bytes after the data are read. -/
theorem C88_not_safe : ∃ f : File, f.entries = [(0, .cie ⟨c!"zR", []⟩)] ∧ ehFrame f = .ub := by
  let f : File :=
    { sections := [{ name := some c!".eh_frame", data := some ⟨4, [0, 0, 0, 0]⟩ }]
      segments := some [{ load := true, executable := true }]
      entries := [(0, .cie ⟨c!"zR", []⟩)] }
  exact ⟨f, rfl, by decide +kernel⟩

/-- C88: one CIE with an unknown letter before `R` is enough: no function of the file is read. -/
theorem C88_unknown_letter (class32 : Bool) (sec : Section) (data : Data) (base offset : Nat) (cies : List Cie) (acc : List Fde)
    (c : Char) (l : Str) (bytes : List Nat) (rest : List (Nat × Entry)) (hc : c ∉ c!"RLP") :
    readEntries class32 sec data base cies acc ((offset, .cie ⟨'z' :: c :: l, bytes⟩) :: rest) = .ok none := by
  have h : c ≠ 'R' ∧ c ≠ 'L' ∧ c ≠ 'P' := by simpa using hc
  have e : readCie class32 offset ⟨'z' :: c :: l, bytes⟩ = cieLetters class32 offset (c :: l) bytes := rfl
  rw [readEntries, e, cieLetters, if_neg h.1, if_neg h.2.1, if_neg h.2.2]
  rfl

/-! ## Looking functions up -/

/-- The offset is one of the function. -/
def Contains (d : Fde) (offset : Nat) : Prop := d.start ≤ offset ∧ offset < d.start + d.length

/-- The address is one of the function. -/
def ContainsAddress (d : Fde) (a : Nat) : Prop := d.execBase + d.start ≤ a ∧ a < d.execBase + d.start + d.length

/-- `d` is the first one with a property. -/
def First (p : Fde → Prop) (l : List Fde) (d : Fde) : Prop :=
  ∃ before after, l = before ++ d :: after ∧ p d ∧ ∀ x ∈ before, ¬ p x

theorem first_spec {p : Fde → Prop} {f : List Fde → Option Fde} (l : List Fde) (h0 : f [] = none)
    (h1 : ∀ d ∈ l, ∀ t, p d → f (d :: t) = some d) (h2 : ∀ d ∈ l, ∀ t, ¬ p d → f (d :: t) = f t) :
    (∀ d, f l = some d ↔ First p l d) ∧ (f l = none ↔ ∀ d ∈ l, ¬ p d) := by
  induction l with
  | nil => exact ⟨fun d => ⟨fun h => by rw [h0] at h; simp at h, fun ⟨b, a, h, _⟩ => by simp at h⟩, by simp [h0]⟩
  | cons x l ih =>
    obtain ⟨i1, i2⟩ := ih (fun d hd => h1 d (by simp [hd])) (fun d hd => h2 d (by simp [hd]))
    by_cases hx : p x
    · rw [h1 x (by simp) l hx]
      refine ⟨fun d => ⟨fun h => ?_, fun ⟨b, a, h, hd, hb⟩ => ?_⟩, by simp [hx]⟩
      · rw [Option.some.injEq] at h; subst h; exact ⟨[], l, rfl, hx, by simp⟩
      · cases b with
        | nil => rw [List.nil_append, List.cons.injEq] at h; rw [h.1]
        | cons y b =>
          rw [List.cons_append, List.cons.injEq] at h
          exact absurd hx (by rw [h.1]; exact hb y (by simp))
    · rw [h2 x (by simp) l hx]
      refine ⟨fun d => ?_, by rw [i2]; simp [hx]⟩
      rw [i1]
      refine ⟨fun ⟨b, a, h, hd, hb⟩ => ⟨x :: b, a, by rw [h]; rfl, hd, by simpa [hx] using hb⟩, fun ⟨b, a, h, hd, hb⟩ => ?_⟩
      cases b with
      | nil => rw [List.nil_append, List.cons.injEq] at h; rw [← h.1] at hd; exact absurd hd hx
      | cons y b =>
        rw [List.cons_append, List.cons.injEq] at h
        exact ⟨b, a, h.2, hd, fun z hz => hb z (by simp [hz])⟩

/-- C89: looking up an offset gives the first function that has it, and nothing if no function has it; no function may end at
the end of the address space. -/
theorem C89_offset_partial (l : List Fde) (o : Nat) (h : ∀ d ∈ l, d.start + d.length < 2 ^ 64) :
    (∀ d, findOffset o l = some d ↔ First (Contains · o) l d) ∧ (findOffset o l = none ↔ ∀ d ∈ l, ¬ Contains d o) := by
  apply first_spec
  · rfl
  · intro d hd t hp
    rw [findOffset, Nat.mod_eq_of_lt (h d hd)]
    exact if_pos hp
  · intro d hd t hp
    rw [findOffset, Nat.mod_eq_of_lt (h d hd)]
    exact if_neg hp

/-- C89: looking up an address gives the first function that has it, and nothing if no function has it; no function may end at
the end of the address space. -/
theorem C89_address_partial (l : List Fde) (a : Nat) (h : ∀ d ∈ l, d.execBase + d.start + d.length < 2 ^ 64) :
    (∀ d, findAddress a l = some d ↔ First (ContainsAddress · a) l d) ∧
    (findAddress a l = none ↔ ∀ d ∈ l, ¬ ContainsAddress d a) := by
  have e : ∀ d ∈ l, (d.start + d.execBase) % 2 ^ 64 = d.execBase + d.start ∧
      (d.start + d.execBase + d.length) % 2 ^ 64 = d.execBase + d.start + d.length := by
    intro d hd
    have := h d hd
    constructor <;> omega
  apply first_spec
  · rfl
  · intro d hd t hp
    rw [findAddress, (e d hd).1, (e d hd).2]
    exact if_pos hp
  · intro d hd t hp
    rw [findAddress, (e d hd).1, (e d hd).2]
    exact if_neg hp

/-- C89: looking up a start address gives the first function that starts there. -/
theorem C89_start_partial (l : List Fde) (a : Nat) (h : ∀ d ∈ l, d.execBase + d.start < 2 ^ 64) :
    (∀ d, findStart a l = some d ↔ First (fun d => d.execBase + d.start = a) l d) ∧
    (findStart a l = none ↔ ∀ d ∈ l, ¬ d.execBase + d.start = a) := by
  apply first_spec
  · rfl
  · intro d hd t hp
    rw [findStart, if_pos]
    have := h d hd
    omega
  · intro d hd t hp
    rw [findStart, if_neg]
    have := h d hd
    omega

/-- C89: if functions do not overlap, there is only one function to be found. -/
theorem C89_unique (l : List Fde) (o : Nat) (d : Fde) (h : ∀ d ∈ l, d.start + d.length < 2 ^ 64)
    (hd : ∀ x ∈ l, ∀ y ∈ l, x ≠ y → x.start + x.length ≤ y.start ∨ y.start + y.length ≤ x.start) :
    findOffset o l = some d ↔ d ∈ l ∧ Contains d o := by
  rw [(C89_offset_partial l o h).1]
  constructor
  · rintro ⟨b, a, rfl, hc, -⟩
    exact ⟨by simp, hc⟩
  · rintro ⟨hm, hc⟩
    cases hf : findOffset o l with
    | none => exact absurd hc (((C89_offset_partial l o h).2.1 hf) d hm)
    | some x =>
      have hx := ((C89_offset_partial l o h).1 x).1 hf
      have hxm : x ∈ l := by obtain ⟨b, a, h, -⟩ := hx; rw [h]; simp
      have hxc : Contains x o := by obtain ⟨_, _, _, h, _⟩ := hx; exact h
      by_cases e : x = d
      · rw [← e]; exact hx
      · exfalso
        unfold Contains at hc hxc
        rcases hd x hxm d hm e with h | h <;> omega

/-- C89: for functions of one file, looking up an offset is looking up the address. -/
theorem C89_agree (l : List Fde) (base o : Nat) (hb : ∀ d ∈ l, d.execBase = base)
    (h : ∀ d ∈ l, base + d.start + d.length < 2 ^ 64) : findAddress (base + o) l = findOffset o l := by
  induction l with
  | nil => rfl
  | cons d l ih =>
    have h1 := h d (by simp)
    have h2 := hb d (by simp)
    have e1 : (d.start + d.execBase) % 2 ^ 64 = base + d.start := by omega
    have e2 : (d.start + d.execBase + d.length) % 2 ^ 64 = base + d.start + d.length := by omega
    have e3 : (d.start + d.length) % 2 ^ 64 = d.start + d.length := by omega
    rw [findAddress, findOffset, ih (fun d hd => hb d (by simp [hd])) (fun d hd => h d (by simp [hd])), e1, e2, e3]
    by_cases hc : d.start ≤ o ∧ o < d.start + d.length
    · rw [if_pos hc, if_pos (by omega)]
    · rw [if_neg hc, if_neg (by omega)]

/-- C89 does not hold for a function that ends at the end of the address space. -/
theorem C89_not_end : findOffset (2 ^ 64 - 1) [⟨0, 2 ^ 64 - 16, 16⟩] = none ∧ Contains ⟨0, 2 ^ 64 - 16, 16⟩ (2 ^ 64 - 1) :=
  ⟨by decide +kernel, by simp [Contains]⟩

example : findOffset 0x125 [⟨0x400000, 0x100, 0x20⟩, ⟨0x400000, 0x120, 0x13⟩] = some ⟨0x400000, 0x120, 0x13⟩ ∧
    findAddress 0x40011f [⟨0x400000, 0x100, 0x20⟩, ⟨0x400000, 0x120, 0x13⟩] = some ⟨0x400000, 0x100, 0x20⟩ ∧
    findOffset 0x133 [⟨0x400000, 0x100, 0x20⟩, ⟨0x400000, 0x120, 0x13⟩] = none := by decide +kernel

/-! ## The procedure linkage table -/

/-- The tables for `.plt`, which is section `i`: the relocations of that section, their symbols, and the string table of these. -/
def HasTables (f : File) (i : Nat) (relocations symbols : Data) (strings : Nat) : Prop :=
  ∃ before s after y, f.sections = before ++ s :: after ∧ (∀ x ∈ before, x.header = true ∧ ¬ (x.isRela = true ∧ x.info = i)) ∧
    s.header = true ∧ s.isRela = true ∧ s.info = i ∧ s.data = some relocations ∧
    s.link ≠ 0 ∧ f.sections[s.link - 1]? = some y ∧ y.header = true ∧ y.data = some symbols ∧ y.link = strings ∧ strings ≠ 0

/-- The slots of `.plt` from `address` on: each has 16 bytes, the bytes 7 to 10 being the number of a relocation, and belongs to
the symbol of this relocation. -/
inductive Slots (f : File) (relocations symbols : Data) (strings : Nat) : Nat → List Nat → List PltEntry → Prop
  | nil (address : Nat) : Slots f relocations symbols strings address [] []
  | cons {address index symbol name : Nat} {a b rest : List Nat} {es : List PltEntry} : a.length = 7 → b.length = 5 →
      index < 2 ^ 32 → (f.relocations relocations)[index]? = some symbol → (f.symbols symbols)[symbol]? = some name →
      Slots f relocations symbols strings (address + 16) rest es →
      Slots f relocations symbols strings address (a ++ (le 4 index ++ (b ++ rest))) (⟨address, f.string strings name⟩ :: es)

theorem pltTables_eq {f : File} {i : Nat} {r y : Data} {strings : Nat} (h : HasTables f i r y strings) :
    pltTables f i f.sections = some (r, y, strings) := by
  obtain ⟨before, s, after, t, h1, h2, h3, h4, h5, h6, h7, h8, h9, h10, h11, h12⟩ := h
  rw [h1]
  clear h1
  induction before with
  | nil =>
    rw [List.nil_append, pltTables, if_neg (by simp [h3]), if_pos ⟨h4, h5⟩, h6]
    dsimp only
    rw [sectionAt, if_neg h7, h8]
    dsimp only
    rw [h10]
    dsimp only
    rw [if_neg (by simp [h9]), h11]
  | cons x l ih =>
    obtain ⟨h13, h14⟩ := h2 x (by simp)
    rw [List.cons_append, pltTables, if_neg (by simp [h13]), if_neg h14]
    exact ih fun x hx => h2 x (by simp [hx])

theorem pltSlots_eq {f : File} {r y : Data} {strings : Nat} {d : Data} {base address : Nat} {rest : List Nat} {es : List PltEntry}
    (h : Slots f r y strings address rest es) (hs : d.size = d.bytes.length) (hb : base + d.size ≤ 2 ^ 64) (pre : List Nat)
    (hp : d.bytes = pre ++ rest) (ha : address = base + pre.length) (n : Nat) (hn : rest.length < n) (acc : List PltEntry) :
    pltSlots f d r y strings base n pre.length acc = .ok (some (acc ++ es)) := by
  induction h generalizing pre n acc with
  | nil address =>
    cases n with
    | zero => simp at hn
    | succ n =>
      have : d.size = pre.length := by rw [hs, hp]; simp
      rw [pltSlots, if_neg (by omega), List.append_nil]
  | @cons address index symbol name a b rest es h1 h2 h3 h4 h5 h6 ih =>
    have hlen : (a ++ (le 4 index ++ (b ++ rest))).length = 16 + rest.length := by simp [h1, h2, le_length]; omega
    have hd : d.size = pre.length + 16 + rest.length := by
      rw [hs, hp, List.length_append, hlen]; omega
    cases n with
    | zero => simp at hn
    | succ n =>
      rw [pltSlots, if_pos (by omega)]
      have hdrop : d.bytes.drop (pre.length + 7) = le 4 index ++ (b ++ rest) := by
        rw [hp, ← List.append_assoc]
        apply List.drop_left'
        simp [h1]
      rw [hdrop, readBytes_le, Nat.mod_eq_of_lt (by omega)]
      change (match (f.relocations r)[index]? with | none => _ | some symbol => _) = _
      rw [h4]
      dsimp only
      rw [h5]
      dsimp only
      have hnext : pre.length + 16 = (pre ++ (a ++ (le 4 index ++ b))).length := by simp [h1, h2, le_length]
      rw [hnext, Nat.mod_eq_of_lt (by omega), ← ha]
      rw [ih (pre ++ (a ++ (le 4 index ++ b))) (by rw [hp]; simp) (by rw [← hnext]; omega) n (by omega) _]
      simp

/-- C90: from a file with a procedure linkage table the entries are read, each with its address and the name of its symbol. -/
theorem C90_entries (f : File) (i : Nat) (s : Section) (d r y : Data) (strings : Nat) (first rest : List Nat) (es : List PltEntry)
    (hp : HasSection f c!".plt" i s d) (ht : HasTables f i r y strings) (hd : d.bytes = first ++ rest) (h16 : first.length = 16)
    (hs : d.size = d.bytes.length) (hb : s.addr + d.size ≤ 2 ^ 64) (h : Slots f r y strings (s.addr + 16) rest es) :
    plt f = .ok (some es) := by
  have h12 : strings ≠ 0 := by obtain ⟨_, _, _, _, _, _, _, _, _, _, _, _, _, _, _, h⟩ := ht; exact h
  rw [plt, hp.find]
  dsimp only
  rw [pltTables_eq ht]
  dsimp only
  rw [if_neg h12, ← h16]
  exact pltSlots_eq h hs hb first hd (by omega) _ (by rw [hs, hd, List.length_append]; omega) []

theorem Slots.bounds {f : File} {r y : Data} {strings address : Nat} {rest : List Nat} {es : List PltEntry}
    (h : Slots f r y strings address rest es) : ∀ e ∈ es, address ≤ e.address := by
  induction h with
  | nil => simp
  | cons _ _ _ _ _ _ ih =>
    intro e he
    rcases List.mem_cons.1 he with rfl | he
    · exact Nat.le_refl _
    · have := ih e he; omega

/-- C90: looking up an address gives the entry with that address, if there is one. -/
theorem C90_find (f : File) (r y : Data) (strings address : Nat) (rest : List Nat) (es : List PltEntry)
    (h : Slots f r y strings address rest es) (a : Nat) (e : PltEntry) : pltFind a es = some e ↔ e ∈ es ∧ e.address = a := by
  induction h with
  | nil => simp [pltFind]
  | @cons address index symbol name x z rest es _ _ _ _ _ h ih =>
    rw [pltFind]
    by_cases ha : address = a
    · rw [if_pos ha, Option.some.injEq, List.mem_cons]
      refine ⟨fun he => ⟨.inl he.symm, by rw [← he]; exact ha⟩, fun ⟨hm, hea⟩ => ?_⟩
      rcases hm with hm | hm
      · exact hm.symm
      · have := h.bounds e hm; omega
    · rw [if_neg ha, ih, List.mem_cons]
      refine ⟨fun ⟨h1, h2⟩ => ⟨.inr h1, h2⟩, fun ⟨hm, hea⟩ => ⟨hm.resolve_left ?_, hea⟩⟩
      rintro rfl
      exact ha hea

/-- C90: no byte outside of the section is read if it has contents, all of which can be read, and is made of slots. -/
theorem C90_safe_partial (f : File) (h : ∀ i s d, findSection f c!".plt" = some (i, s, d) → d.size = d.bytes.length ∧ 16 ∣ d.size) :
    plt f ≠ .ub := by
  have key : ∀ (d r y : Data) (strings base n offset : Nat) (acc : List PltEntry), d.size = d.bytes.length → 16 ∣ d.size →
      16 ∣ offset → d.size - offset < n → pltSlots f d r y strings base n offset acc ≠ .ub := by
    intro d r y strings base n
    induction n with
    | zero => intro _ _ _ _ _ h; omega
    | succ n ih =>
      intro offset acc h1 h2 h3 h4
      rw [pltSlots]
      split
      · next hlt =>
        rw [readBytes, if_pos (by rw [List.length_drop, ← h1]; omega)]
        simp only [Out.bind]
        split
        · simp
        · split
          · simp
          · exact ih _ _ h1 h2 (by omega) (by omega)
      · simp
  rw [plt]
  split
  · simp
  · next i s d hf =>
    split
    · simp
    · split
      · simp
      · exact key _ _ _ _ _ _ _ _ (h _ _ _ hf).1 (h _ _ _ hf).2 (by omega) (by omega)

/-- A file with a procedure linkage table of two entries. -/
def samplePlt (d : Data) : File where
  sections := [{ name := some c!".plt", addr := 0x1000, data := some d },
    { name := some c!".rela.plt", isRela := true, info := 1, link := 3, data := some {} },
    { name := some c!".dynsym", link := 4, data := some {} }, { name := some c!".dynstr", data := some {} }]
  relocations := fun _ => [2, 1]
  symbols := fun _ => [0, 1, 7]
  string := fun _ o => if o = 1 then some c!"malloc" else some c!"free"

def samplePltBytes : List Nat :=
  List.replicate 16 0 ++ ([0xff, 0x25, 0x2a, 0x2c, 0x20, 0, 0x68] ++ (le 4 0 ++ ([0xe9, 0xe0, 0xff, 0xff, 0xff] ++
    ([0xff, 0x25, 0x22, 0x2c, 0x20, 0, 0x68] ++ (le 4 1 ++ ([0xe9, 0xd0, 0xff, 0xff, 0xff] ++ []))))))

example : plt (samplePlt ⟨48, samplePltBytes⟩) = .ok (some [⟨0x1010, some c!"free"⟩, ⟨0x1020, some c!"malloc"⟩]) := by
  decide +kernel

/-- The hypotheses of C90 are met by the sample. -/
example : plt (samplePlt ⟨48, samplePltBytes⟩) = .ok (some [⟨0x1010, some c!"free"⟩, ⟨0x1020, some c!"malloc"⟩]) :=
  C90_entries _ 1 _ _ {} {} 4 (List.replicate 16 0) _ _
    ⟨rfl, [], _, rfl, rfl, by simp, rfl, rfl, rfl⟩
    ⟨[_], _, _, _, rfl, by simp, rfl, rfl, rfl, rfl, by decide, rfl, rfl, rfl, rfl, by decide⟩ rfl rfl rfl (by decide)
    (.cons (index := 0) (symbol := 2) (name := 7) rfl rfl (by omega) rfl rfl
      (.cons (index := 1) (symbol := 1) (name := 1) rfl rfl (by omega) rfl rfl (.nil _)))

/-- C90 does not hold for a file in which `.plt` has no contents (a file with debugging information only): the program reads at
an invalid address. Nor is it safe if the section does not consist of slots of 16 bytes. -/
theorem C90_not_safe : plt (samplePlt ⟨48, []⟩) = .ub ∧ plt (samplePlt ⟨20, samplePltBytes.take 20⟩) = .ub := by decide +kernel

/-! ## JSON -/

/-- The members of the JSON object of a function. -/
def fdeVals (d : Fde) : List (Str × Value) := [(c!"start_address", .num d.start), (c!"length", .num d.length)]

theorem fde_rend (d : Fde) : Rend (toks (.obj (fdeVals d))) (fdeToJson d) := by
  have h1 := Body.numMember 100 (name := c!",   \"start_address\": ") (key := c!"start_address") (by decide) rfl d.start
  have h2 := Body.numMember 100 (name := c!",   \"length\": ") (key := c!"length") (by decide) rfl d.length
  have := (h1.append h2).object (by simp) [] rfl
  simpa [fdeToJson, numMember, fdeVals] using this

theorem loop_rend (l : List Fde) : Rend (l.flatMap fun d => .comma :: toks (.obj (fdeVals d))) (listLoop c!", " l) := by
  induction l with
  | nil => exact Rend.nil
  | cons p l ih =>
    have ha := (fde_rend p).indent 2
    have hc : Rend [.comma] c!", " := rend_lit 100 (by decide)
    cases l with
    | nil => simpa [listLoop] using hc.append ha
    | cons q l => simpa [listLoop] using hc.append (ha.append (Rend.ws (c := '\n') rfl ih))

/-- C91: what is written for functions is a JSON document with the start address and length of each, in the same order; there
must be at least one. -/
theorem C91_json_partial (l : List Fde) (hne : l ≠ []) :
    parse (listToJson l) = some (.arr (l.map fun d =>
      .obj [(c!"start_address", .num d.start), (c!"length", .num d.length)])) := by
  apply parse_toks
  change Rend (toks (.arr (l.map fun d => .obj (fdeVals d)))) _
  have hclose : Rend [.rbracket] c!" ]" := rend_lit 100 (by decide)
  have ho : Rend [.lbracket] c!"[ " := rend_lit 100 (by decide)
  cases l with
  | nil => exact absurd rfl hne
  | cons p l =>
    have ha := (fde_rend p).indent 2
    rw [List.map_cons, toks, itemToks, moreItemToks_append]
    cases l with
    | nil => simpa [listLoop, listToJson] using ho.append (ha.append hclose)
    | cons q l =>
      have := ho.append (ha.append (Rend.ws (c := '\n') rfl ((loop_rend (q :: l)).append hclose)))
      simpa [listLoop, listToJson, List.flatMap_map] using this

/-- C91 for one function. -/
theorem C91_one (d : Fde) :
    parse (fdeToJson d) = some (.obj [(c!"start_address", .num d.start), (c!"length", .num d.length)]) := parse_toks (fde_rend d)

/-- C91 does not hold without functions: the text is not JSON. -/
theorem C91_not_empty : parse (listToJson []) = none := by decide +kernel

example : listToJson [⟨1, 2, 3⟩, ⟨1, 5, 6⟩] =
  c!"[ {   \"start_address\": 2\n  ,   \"length\": 3\n  }\n, {   \"start_address\": 5\n  ,   \"length\": 6\n  } ]" := by
  decide +kernel

end Satyr.Elf
