import Verif.Json.Model
/-!
# Model of reading ELF files (lib/elves.c)

The libraries libelf and libdw are not part of the source: what they deliver for a file is the input of the model. All numbers
are natural numbers; a 64-bit sum is taken modulo `2 ^ 64`.
-/
namespace Satyr.Elf
open Satyr.CStr Satyr.Json

/-- What `elf_getdata` delivers: `d_size`, and the bytes at `d_buf` (none if `d_buf` is NULL, as it is for a section without
contents in the file). -/
structure Data where
  size : Nat := 0
  bytes : List Nat := []
  deriving DecidableEq, Repr

/-- A section: its name (`none` if `elf_strptr` fails), the members of its header that are used, and its data (`none` if
`elf_getdata` fails). `header` tells whether `gelf_getshdr` succeeds. -/
structure Section where
  header : Bool := true
  name : Option Str := none
  isRela : Bool := false
  info : Nat := 0
  link : Nat := 0
  addr : Nat := 0
  offset : Nat := 0
  data : Option Data := none
  deriving DecidableEq, Repr

/-- A program header: is it a `PT_LOAD`, has it the flag `PF_X`, and `p_vaddr`. `header` tells whether `gelf_getphdr` succeeds. -/
structure Segment where
  header : Bool := true
  load : Bool := false
  executable : Bool := false
  vaddr : Nat := 0
  deriving DecidableEq, Repr

/-- What `dwarf_next_cfi` delivers for an entry that is a CIE: `augmentation`, and the bytes that can be read at
`augmentation_data`. -/
structure CieEntry where
  augmentation : Str := []
  data : List Nat := []
  deriving DecidableEq, Repr

/-- What `dwarf_next_cfi` delivers for an entry that is an FDE: `CIE_pointer`, and the bytes that can be read at `start`. -/
structure FdeEntry where
  cie : Nat := 0
  start : List Nat := []
  deriving DecidableEq, Repr

/-- One call of `dwarf_next_cfi`: a CIE, an FDE, an error after which the next offset is known, or an error after which it is
not. -/
inductive Entry where
  | cie (e : CieEntry)
  | fde (e : FdeEntry)
  | skipped
  | bad
  deriving DecidableEq, Repr

/-- An ELF file: is it a 32-bit file, does `elf_getshdrstrndx` succeed, the sections from index 1 on, the relocations (their
symbol indices) and the symbols (their string offsets) of a section with given data, the string at an offset of a string table,
the program headers (`none` if `elf_getphdrnum` fails), and the entries of `.eh_frame` with their offsets. -/
structure File where
  class32 : Bool := false
  ident : Bool := true
  names : Bool := true
  sections : List Section := []
  relocations : Data → List Nat := fun _ => []
  symbols : Data → List Nat := fun _ => []
  string : Nat → Nat → Option Str := fun _ _ => none
  segments : Option (List Segment) := some []
  entries : List (Nat × Entry) := []

/-! ## Sections -/

/-- The loop of `find_elf_section_by_name` (lib/elves.c:73-111), from the section with index `i` on. -/
def findFrom (name : Str) (i : Nat) : List Section → Option (Nat × Section × Data)
  | [] => none
  | s :: l =>
    if s.header = false then none
    else
      match s.name with
      | none => none
      | some n =>
        if n = name then
          match s.data with
          | none => none
          | some d => some (i, s, d)
        else findFrom name (i + 1) l

/-- `find_elf_section_by_name` (lib/elves.c:58-115): the index, header and data of the section; failure is `none`. -/
def findSection (f : File) (name : Str) : Option (Nat × Section × Data) :=
  if f.names then findFrom name 1 f.sections else none

/-! ## The procedure linkage table -/

/-- `struct sr_elf_plt_entry` (lib/elves.h:38-50). -/
structure PltEntry where
  address : Nat
  name : Option Str
  deriving DecidableEq, Repr

/-- The section with an index (`elf_getscn`). Index 0 is the empty section, which has no data. -/
def sectionAt (f : File) (i : Nat) : Option Section :=
  if i = 0 then some {} else f.sections[i - 1]?

/-- The loop that looks for the relocations of `.plt` (lib/elves.c:171-243): the data of the relocations and symbols, and the
index of the string table, all zero if there are none; failure is `none`. -/
def pltTables (f : File) (plt : Nat) : List Section → Option (Data × Data × Nat)
  | [] => some ({}, {}, 0)
  | s :: l =>
    if s.header = false then none
    else if s.isRela = true ∧ s.info = plt then
      match s.data with
      | none => none
      | some r =>
        match sectionAt f s.link with
        | none => none
        | some y =>
          match y.data with
          | none => none
          | some d => if y.header = false then none else some (r, d, y.link)
    else pltTables f plt l

/-- The number that `len` bytes encode, lowest byte first: `fde_read_address` (lib/elves.c:481-496), and the read of a
`uint32_t` (lib/elves.c:277); reading more bytes than there are is undefined. Byte order: the one of x86. -/
def readBytes (l : List Nat) (len : Nat) : Out Nat :=
  if len ≤ l.length then .ok ((l.take len).foldr (fun b n => b + 256 * n) 0) else .ub

/-- The loop over the slots of `.plt` (lib/elves.c:274-319), from `offset` on, with `n` bounding the number of slots; `acc` is
the list so far. `unsigned` offsets do not overflow here: the section is smaller than 4 GiB. -/
def pltSlots (f : File) (plt relocations symbols : Data) (strings base : Nat) : Nat → Nat → List PltEntry →
    Out (Option (List PltEntry))
  | 0, _, _ => .ub
  | n + 1, offset, acc =>
    if offset < plt.size then
      (readBytes (plt.bytes.drop (offset + 7)) 4).bind fun index =>
        match (f.relocations relocations)[index]? with
        | none => .ok none
        | some symbol =>
          match (f.symbols symbols)[symbol]? with
          | none => .ok none
          | some name =>
            pltSlots f plt relocations symbols strings base n (offset + 16)
              (acc ++ [{ address := (base + offset) % 2 ^ 64, name := f.string strings name }])
    else .ok (some acc)

/-- `sr_elf_get_procedure_linkage_table` (lib/elves.c:118-328): the entries; failure, which sets the error message, is
`none`. -/
def plt (f : File) : Out (Option (List PltEntry)) :=
  match findSection f c!".plt" with
  | none => .ok none
  | some (i, s, d) =>
    match pltTables f i f.sections with
    | none => .ok none
    | some (r, y, strings) =>
      if strings = 0 then .ok none else pltSlots f d r y strings s.addr (d.size + 1) 16 []

/-- `sr_elf_plt_find_for_address` (lib/elves.c:342-357). -/
def pltFind (address : Nat) : List PltEntry → Option PltEntry
  | [] => none
  | e :: l => if e.address = address then some e else pltFind address l

/-! ## Functions (frame description entries) -/

/-- `encoded_size` (lib/elves.c:364-380): `DW_EH_PE_udata2` is 2, `udata4` is 3, `udata8` is 4 and `absptr` is 0. -/
def encodedSize (class32 : Bool) (encoding : Nat) : Nat :=
  match encoding % 8 with
  | 2 => 2
  | 3 => 4
  | 4 => 8
  | 0 => if class32 then 4 else 8
  | _ => 0

/-- `struct cie` (lib/elves.c:382-389). -/
structure Cie where
  offset : Nat
  len : Nat
  pcrel : Bool := false
  deriving DecidableEq, Repr

/-- `*augmentation_data`: reading past the end of the data is undefined. -/
def byte : List Nat → Out Nat
  | [] => .ub
  | b :: _ => .ok b

/-- The loop of `read_cie` (lib/elves.c:426-470) over the letters. `encoding & 0x70` is `DW_EH_PE_pcrel` (16) if the bits 4 to
6 are 1. -/
def cieLetters (class32 : Bool) (offset : Nat) : Str → List Nat → Out (Option Cie)
  | [], _ => .ok (some { offset := offset, len := encodedSize class32 0 })
  | c :: l, data =>
    if c = 'R' then
      (byte data).bind fun b =>
        let len := encodedSize class32 b
        if len ≠ 4 ∧ len ≠ 8 then .ok none
        else .ok (some { offset := offset, len := len, pcrel := b / 16 % 8 == 1 })
    else if c = 'L' then cieLetters class32 offset l (data.drop 1)
    else if c = 'P' then
      (byte data).bind fun b =>
        let size := encodedSize class32 b
        if size = 0 then .ok none else cieLetters class32 offset l (data.drop (size + 1))
    else .ok none

/-- `read_cie` (lib/elves.c:403-473). -/
def readCie (class32 : Bool) (offset : Nat) (e : CieEntry) : Out (Option Cie) :=
  let letters := match e.augmentation with
    | 'z' :: l => l
    | l => l
  cieLetters class32 offset letters e.data

/-- `struct sr_elf_fde` (lib/elves.h:52-74). -/
structure Fde where
  execBase : Nat := 0
  start : Nat := 0
  length : Nat := 0
  deriving DecidableEq, Repr

/-- Looking for the executable segment (lib/elves.c:573-602): failure, also if the address found is `UINT64_MAX`, is `none`. -/
def execBase : List Segment → Option Nat
  | [] => none
  | s :: l =>
    if s.header = false then none
    else if s.load = true ∧ s.executable = true then (if s.vaddr = 2 ^ 64 - 1 then none else some s.vaddr)
    else execBase l

/-- Looking for the CIE of an FDE (lib/elves.c:697-708). -/
def findCie (pointer : Nat) : List Cie → Option Cie
  | [] => none
  | c :: l => if pointer = c.offset then some c else findCie pointer l

/-- The start address (lib/elves.c:733-751). `section` is the header and `data` the data of `.eh_frame`. -/
def startAddress (sec : Section) (data : Data) (base offset : Nat) (c : Cie) (location : Nat) : Out Nat :=
  if c.pcrel then
    (readBytes (data.bytes.drop offset) 4).bind fun length =>
      let skip := if length = 2 ^ 32 - 1 then 12 else 4
      let sum := (location + (sec.offset + offset + 2 * skip)) % 2 ^ 64
      .ok (if c.len = 4 then sum % 2 ^ 32 else sum)
  else .ok ((location + 2 ^ 64 - base) % 2 ^ 64)

/-- Reading an FDE (lib/elves.c:692-757); failure is `none`. -/
def readFde (sec : Section) (data : Data) (base offset : Nat) (cies : List Cie) (e : FdeEntry) : Out (Option Fde) :=
  match findCie e.cie cies with
  | none => .ok none
  | some c => do
    let location ← readBytes e.start c.len
    let range ← readBytes (e.start.drop c.len) c.len
    let start ← startAddress sec data base offset c location
    .ok (some { execBase := base, start := start, length := range })

/-- The loop over the entries of `.eh_frame` (lib/elves.c:620-771). -/
def readEntries (class32 : Bool) (sec : Section) (data : Data) (base : Nat) : List Cie → List Fde → List (Nat × Entry) →
    Out (Option (List Fde))
  | _, fdes, [] => .ok (some fdes)
  | cies, fdes, (offset, .cie e) :: l =>
    (readCie class32 offset e).bind fun
      | none => .ok none
      | some c => readEntries class32 sec data base (cies ++ [c]) fdes l
  | cies, fdes, (offset, .fde e) :: l =>
    (readFde sec data base offset cies e).bind fun
      | none => .ok none
      | some d => readEntries class32 sec data base cies (fdes ++ [d]) l
  | cies, fdes, (_, .skipped) :: l => readEntries class32 sec data base cies fdes l
  | _, _, (_, .bad) :: _ => .ok none

/-- `sr_elf_get_eh_frame` (lib/elves.c:499-780): the functions; failure, which sets the error message, is `none`. -/
def ehFrame (f : File) : Out (Option (List Fde)) :=
  if f.ident = false then .ok none
  else
    match findSection f c!".eh_frame" with
    | none => .ok none
    | some (_, s, d) =>
      match f.segments.bind execBase with
      | none => .ok none
      | some base => readEntries f.class32 s d base [] [] f.entries

/-- `sr_elf_find_fde_for_offset` (lib/elves.c:793-810). -/
def findOffset (offset : Nat) : List Fde → Option Fde
  | [] => none
  | d :: l => if d.start ≤ offset ∧ offset < (d.start + d.length) % 2 ^ 64 then some d else findOffset offset l

/-- `sr_elf_find_fde_for_address` (lib/elves.c:812-829). -/
def findAddress (address : Nat) : List Fde → Option Fde
  | [] => none
  | d :: l =>
    if (d.start + d.execBase) % 2 ^ 64 ≤ address ∧ address < (d.start + d.execBase + d.length) % 2 ^ 64 then some d
    else findAddress address l

/-- `sr_elf_find_fde_for_start_address` (lib/elves.c:831-845). -/
def findStart (address : Nat) : List Fde → Option Fde
  | [] => none
  | d :: l => if address = (d.start + d.execBase) % 2 ^ 64 then some d else findStart address l

/-- `sr_elf_fde_to_json(fde, false)` (lib/elves.c:875-888). -/
def fdeToJson (d : Fde) : Str :=
  c!"{   \"start_address\": " ++ natDec d.start ++ c!"\n" ++ (c!",   \"length\": " ++ natDec d.length ++ c!"\n") ++ c!"}"

/-- The loop over the functions (lib/elves.c:855-872). -/
def listLoop (head : Str) : List Fde → Str
  | [] => []
  | [d] => head ++ indentExceptFirst 2 (fdeToJson d)
  | d :: e :: l => head ++ (indentExceptFirst 2 (fdeToJson d) ++ '\n' :: listLoop c!", " (e :: l))

/-- `sr_elf_fde_to_json(fde, true)` (lib/elves.c:853-874). -/
def listToJson (l : List Fde) : Str := listLoop c!"[ " l ++ c!" ]"

end Satyr.Elf
