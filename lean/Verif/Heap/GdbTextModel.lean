import Verif.Heap.TextModel
import Verif.Gdb.TraceModel
/-!
# Model of memory: reading gdb stack traces from text (lib/gdb_frame.c:322-1177, lib/gdb_thread.c:308-435, lib/gdb_stacktrace.c:441-561,
lib/gdb_sharedlib.c:165-251)

What does not use memory is taken from `Verif/Gdb`. All messages are constants, and locations are left out. A growing text
(`GString`) is one block with its characters; it moves each time that something is appended. A function that stores a new text in
`*target` returns its address; the address is 0 if nothing was read. Freeing a growing text that is NULL is undefined.
-/
namespace Satyr.Heap
open Satyr.CStr
open Satyr.Frames

/-! ## Growing texts -/

/-- The characters at an address. -/
def readText (m : Mem) (p : Ptr) : Out Str :=
  match m p with
  | some (.text s) => .ok s
  | _ => .ub

/-- `g_string_append`, `g_string_append_c`: the new address. -/
def bufAdd (A : Allocator) (p : Ptr) (t : Str) (m : Mem) : Out (Ptr × Mem) :=
  (readText m p).bind fun old =>
  (alloc A (.text (old ++ t)) m).bind fun (q, m) => (freeBlock m p).bind fun m => .ok (q, m)

/-- `g_string_free(buf, TRUE)`. -/
def bufFree (p : Ptr) (m : Mem) : Out Mem := if p = 0 then .ub else freeBlock m p

/-! ## Names of functions -/

/-- The loop of `sr_gdb_frame_parse_function_name_chunk` (lib/gdb_frame.c:426-453): `buf`, the rest. -/
def gdbChunkLoop (A : Allocator) (spaceAllowed : Bool) : Nat → Str → Ptr → Mem → Out (Ptr × Str × Mem)
  | 0, _, _, _ => .ub
  | fuel + 1, s, p, m =>
    if peek s = '\x00' then .ok (p, s, m)
    else
      (Gdb.chunkOperator s).bind fun r =>
      (bufAdd A p r.1 m).bind fun (p, m) =>
      if strchrHas Gdb.nameChars (peek r.2) = false ∧ (spaceAllowed = false ∨ strchrHas c!" " (peek r.2) = false) then .ok (p, r.2, m)
      else
        (advance r.2).bind fun t =>
        (bufAdd A p [peek r.2] m).bind fun (p, m) => gdbChunkLoop A spaceAllowed fuel t p m

/-- `sr_gdb_frame_parse_function_name_chunk` (lib/gdb_frame.c:419-465). -/
def gdbChunk (A : Allocator) (spaceAllowed : Bool) (s : Str) (m : Mem) : Out (Ptr × Str × Mem) :=
  (alloc A (.text []) m).bind fun (p, m) =>
  (gdbChunkLoop A spaceAllowed (s.length + 1) s p m).bind fun (p, t, m) =>
  (readText m p).bind fun x =>
  if x = [] then (bufFree p m).bind fun m => .ok (0, s, m) else .ok (p, t, m)

/-- `sr_gdb_frame_parse_function_name_template_args` (lib/gdb_frame.c:481-514). -/
def gdbTemplateArgs (A : Allocator) (s : Str) (m : Mem) : Out (Ptr × Str × Mem) :=
  if (skipString s c!" [with ").1 = 0 then .ok (0, s, m)
  else
    (alloc A (.text []) m).bind fun (p, m) =>
    (bufAdd A p c!" [with " m).bind fun (p, m) =>
    (bufAdd A p (Gdb.templateArgsLoop 1 (skipString s c!" [with ").2).1 m).bind fun (p, m) =>
    (skipChar (Gdb.templateArgsLoop 1 (skipString s c!" [with ").2).2 ']').bind fun b =>
    if b.1 = false then (bufFree p m).bind fun m => .ok (0, s, m)
    else (bufAdd A p [']'] m).bind fun (p, m) => .ok (p, b.2, m)

/-- `x || y`: the second is called if the first has read nothing. -/
def gdbOr (x y : Mem → Out (Ptr × Str × Mem)) (m : Mem) : Out (Ptr × Str × Mem) :=
  (x m).bind fun (p, t, m) => if p ≠ 0 then .ok (p, t, m) else y m

/-- `sr_gdb_frame_parse_function_name_braces` and `sr_gdb_frame_parse_function_name_template` (lib/gdb_frame.c:516-550, 552-596)
around their loops. -/
def gdbBracket (A : Allocator) (left right : Char) (inner : Str → Ptr → Mem → Out (Ptr × Str × Mem)) (s : Str) (m : Mem) :
    Out (Ptr × Str × Mem) :=
  (skipChar s left).bind fun a =>
  if a.1 = false then .ok (0, s, m)
  else
    (alloc A (.text []) m).bind fun (p, m) =>
    (bufAdd A p [left] m).bind fun (p, m) =>
    (inner a.2 p m).bind fun (p, t, m) =>
    (skipChar t right).bind fun b =>
    if b.1 = false then (bufFree p m).bind fun m => .ok (0, s, m)
    else (bufAdd A p [right] m).bind fun (p, m) => .ok (p, b.2, m)

/-- `g_string_append(buf, namechunk); g_free(namechunk)` (e.g. lib/gdb_frame.c:532-533). -/
def bufTake (A : Allocator) (p q : Ptr) (m : Mem) : Out (Ptr × Mem) :=
  (readText m q).bind fun x => (bufAdd A p x m).bind fun (p, m) => (freeBlock m q).bind fun m => .ok (p, m)

/-- Repeat a parser and append what it reads. -/
def gdbRep (A : Allocator) (part : Str → Mem → Out (Ptr × Str × Mem)) (again : Str → Ptr → Mem → Out (Ptr × Str × Mem)) (s : Str)
    (p : Ptr) (m : Mem) : Out (Ptr × Str × Mem) :=
  (part s m).bind fun (q, t, m) =>
  if q = 0 then .ok (p, s, m) else (bufTake A p q m).bind fun (p, m) => again t p m

/-- The loops of `sr_gdb_frame_parse_function_name_braces` (lib/gdb_frame.c:525-537) and, with `template`,
`sr_gdb_frame_parse_function_name_template` (lib/gdb_frame.c:561-583). -/
def gdbInner (A : Allocator) : Nat → Bool → Str → Ptr → Mem → Out (Ptr × Str × Mem)
  | 0, _, _, _, _ => .ub
  | fuel + 1, template, s, p, m =>
    gdbRep A (fun s => gdbOr (fun m => if template then gdbTemplateArgs A s m else .ok (0, s, m)) <| gdbOr (gdbChunk A true s) <|
      gdbOr (gdbBracket A '(' ')' (gdbInner A fuel false) s) (gdbBracket A '<' '>' (gdbInner A fuel true) s)) (gdbInner A fuel template) s p m

/-- `sr_gdb_frame_parse_function_name_braces` (lib/gdb_frame.c:516-550). -/
def gdbBraces (A : Allocator) (s : Str) : Mem → Out (Ptr × Str × Mem) := gdbBracket A '(' ')' (gdbInner A (s.length + 1) false) s

/-- `sr_gdb_frame_parse_function_name_template` (lib/gdb_frame.c:552-596). -/
def gdbTemplate (A : Allocator) (s : Str) : Mem → Out (Ptr × Str × Mem) := gdbBracket A '<' '>' (gdbInner A (s.length + 1) true) s

/-- The loops over the parts of a name in `sr_gdb_frame_parse_function_name` (lib/gdb_frame.c:656-681, 729-751). -/
def gdbParts (A : Allocator) : Nat → Str → Ptr → Mem → Out (Ptr × Str × Mem)
  | 0, _, _, _ => .ub
  | fuel + 1, s, p, m =>
    gdbRep A (fun s => gdbOr (gdbChunk A false s) (gdbOr (gdbBraces A s) (gdbTemplate A s))) (gdbParts A fuel) s p m

/-- The beginning of a name (lib/gdb_frame.c:614-653): `buf0`, or 0. -/
def gdbStart (A : Allocator) (s : Str) (m : Mem) : Out (Ptr × Str × Mem) :=
  (alloc A (.text []) m).bind fun (p, m) =>
  (parseCharLimited s Gdb.firstChars).bind fun c =>
  match c.1 with
  | some x => if x = 'o' then .ok (p, s, m) else (bufAdd A p [x] m).bind fun (p, m) => .ok (p, c.2, m)
  | none =>
    (gdbBraces A s m).bind fun (q, t, m) =>
    if q = 0 then (bufFree p m).bind fun m => .ok (0, s, m) else (bufTake A p q m).bind fun (p, m) => .ok (p, t, m)

/-- The suffix ` const` of the first part (lib/gdb_frame.c:694-710): `buf0`, the space before the current position, and the rest;
`none` after a failure. -/
def gdbConst (A : Allocator) (space : Char) (s : Str) (p : Ptr) (m : Mem) : Out (Option (Ptr × Char × Str) × Mem) :=
  if (skipString s c!"const").1 = 0 then .ok (some (p, space, s), m)
  else
    (bufAdd A p (space :: c!"const") m).bind fun (p, m) =>
    (parseCharLimited (skipString s c!"const").2 Gdb.srSpace).bind fun c =>
    match c.1 with
    | none => (bufFree p m).bind fun m => .ok (none, m)
    | some x => .ok (some (p, x, c.2), m)

/-- The second part (lib/gdb_frame.c:715-761): `buf1` or 0, the space, and the rest. -/
def gdbSecond (A : Allocator) (space : Char) (s : Str) (p : Ptr) (m : Mem) : Out (Option (Ptr × Char × Str) × Mem) :=
  (gdbChunk A false s m).bind fun (q, t, m) =>
  if q = 0 then .ok (some (0, space, s), m)
  else
    (alloc A (.text []) m).bind fun (p1, m) =>
    (bufTake A p1 q m).bind fun (p1, m) =>
    (gdbParts A (t.length + 1) t p1 m).bind fun (p1, t, m) =>
    (parseCharLimited t Gdb.srSpace).bind fun c =>
    match c.1 with
    | none => (bufFree p m).bind fun m => (bufFree p1 m).bind fun m => .ok (none, m)
    | some x => .ok (some (p1, x, c.2), m)

/-- The suffix ` const` of the last part and the end (lib/gdb_frame.c:763-799): the addresses of name and type, and the rest. -/
def gdbLast (A : Allocator) (space : Char) (s : Str) (p p1 : Ptr) (m : Mem) : Out (Option ((Ptr × Ptr) × Str) × Mem) :=
  if (skipString s c!"const").1 = 0 then .ok (some (if p1 ≠ 0 then (p1, p) else (p, 0), space :: s), m)
  else
    (bufAdd A (if p1 ≠ 0 then p1 else p) (space :: c!"const") m).bind fun (q, m) =>
    (skipCharLimited (skipString s c!"const").2 Gdb.srSpace).bind fun b =>
    if b.1 = false then
      (bufFree (if p1 ≠ 0 then p else q) m).bind fun m => (bufFree (if p1 ≠ 0 then q else 0) m).bind fun m => .ok (none, m)
    else .ok (some (if p1 ≠ 0 then (q, p) else (q, 0), (skipString s c!"const").2), m)

/-- The parts of `sr_gdb_frame_parse_function_name` after the first space (lib/gdb_frame.c:692-799). -/
def gdbAfter (A : Allocator) (space : Char) (s : Str) (p : Ptr) (m : Mem) : Out (Option ((Ptr × Ptr) × Str) × Mem) :=
  (gdbConst A space s p m).bind fun (k, m) =>
  match k with
  | none => .ok (none, m)
  | some (p, space, s) =>
    (gdbSecond A space s p m).bind fun (r, m) =>
    match r with
    | none => .ok (none, m)
    | some (p1, space, s) => gdbLast A space s p p1 m

/-- `sr_gdb_frame_parse_function_name` (lib/gdb_frame.c:598-800): the addresses of name and type, and the rest. -/
def gdbName (A : Allocator) (s : Str) (m : Mem) : Out (Option ((Ptr × Ptr) × Str) × Mem) :=
  match parseString s c!"??" with
  | (some x, t) => (alloc A (.text x) m).bind fun (p, m) => .ok (some ((p, 0), t), m)
  | (none, _) =>
    (gdbStart A s m).bind fun (p, t, m) =>
    if p = 0 then .ok (none, m)
    else
      (gdbParts A (t.length + 1) t p m).bind fun (p, t, m) =>
      (parseCharLimited t Gdb.srSpace).bind fun c =>
      match c.1 with
      | none => (bufFree p m).bind fun m => .ok (none, m)
      | some x => gdbAfter A x c.2 p m

/-! ## Frames -/

/-- `g_free(name); g_free(type)` (lib/gdb_frame.c:899-900, 909-910). -/
def freeBoth (p : Ptr × Ptr) (m : Mem) : Out Mem := (freeBlock m p.1).bind fun m => freeBlock m p.2

/-- `sr_gdb_frame_parse_function_call` (lib/gdb_frame.c:875-920). -/
def gdbCall (A : Allocator) (s : Str) (m : Mem) : Out (Option ((Ptr × Ptr) × Str) × Mem) :=
  (gdbName A s m).bind fun (n, m) =>
  match n with
  | none => .ok (none, m)
  | some (nt, s) =>
    (skipCharSpan s c!" \n").bind fun w =>
    if w.1 = 0 then (freeBoth nt m).bind fun m => .ok (none, m)
    else
      (Gdb.skipArgs w.2).bind fun r =>
      match r with
      | none => (freeBoth nt m).bind fun m => .ok (none, m)
      | some t => .ok (some (nt, t), m)

/-- `sr_gdb_frame_parse_address_in_function` (lib/gdb_frame.c:922-1009): the address that is stored, and what is read. -/
def gdbAddress (A : Allocator) (s : Str) (m : Mem) : Out (Nat × Option ((Ptr × Ptr) × Str) × Mem) :=
  (parseHex0xUint64 s).bind fun a =>
  if a.1 = 0 then (gdbCall A s m).bind fun (r, m) => .ok (2 ^ 64 - 1, r, m)
  else
    (Gdb.afterAddress a.2.2).bind fun b =>
    match b with
    | none => .ok (a.2.1.getD 0, none, m)
    | some s => (gdbCall A s m).bind fun (r, m) => .ok (a.2.1.getD 0, r, m)

/-- The name of a shared object is freed (lib/gdb_frame.c:1055-1064). -/
def gdbSource (p : Ptr) (m : Mem) : Out (Ptr × Mem) :=
  (readText m p).bind fun name =>
  match Gdb.sourceName name with
  | some _ => .ok (p, m)
  | none => (freeBlock m p).bind fun m => .ok (0, m)

/-- `sr_gdb_frame_parse_file_location` (lib/gdb_frame.c:1011-1084): the address of the file name, the line, and the rest. -/
def gdbLocation (A : Allocator) (s : Str) (m : Mem) : Out (Option (Ptr × Nat × Str) × Mem) :=
  (skipCharSpan s c!" \n").bind fun w =>
  if w.1 = 0 then .ok (none, m)
  else
    (Gdb.fileKeyword w.2).bind fun k =>
    match k with
    | none => .ok (none, m)
    | some s =>
      (parseCharSpan s Gdb.fileChars).bind fun f =>
      match f.1 with
      | none => .ok (none, m)
      | some name =>
        (alloc A (.text name) m).bind fun (p, m) =>
        (gdbSource p m).bind fun (p, m) =>
        (Gdb.fileLine f.2).bind fun l =>
        match l with
        | none => (freeBlock m p).bind fun m => .ok (none, m)
        | some (line, s) => .ok (some (p, line, s), m)

/-- Assignments to the members of a frame that are pointers. -/
def setTexts (p : Ptr) (f : List Ptr → List Ptr) (m : Mem) : Out Mem :=
  (readRecord m p).bind fun r => writeRecord m p { r with texts := f r.texts }

/-- Assignments to the members of a structure that are not pointers. -/
def setData (p : Ptr) (d : List Int) (m : Mem) : Out Mem :=
  (readRecord m p).bind fun r => writeRecord m p { r with data := d }

/-- `imframe->function_name` and `imframe->function_type` (lib/gdb_frame.c:916-917). -/
def gdbNames (p : Ptr) (nt : Ptr × Ptr) (m : Mem) : Out Mem :=
  setTexts p (fun l => (l.set 0 nt.1).set 1 nt.2) m

/-- The members of a frame that are not pointers: number, line, whether it is a signal handler, address. They are written at the
end; nothing reads them before. -/
def gdbData (p : Ptr) (number line : Nat) (signal : Bool) (address : Nat) (m : Mem) : Out Mem :=
  setData p [(number : Int), (line : Int), if signal then 1 else 0, (address : Int)] m

/-- `sr_gdb_frame_parse_header` after the optional call with an address (lib/gdb_frame.c:1131-1172). -/
def gdbWithout (A : Allocator) (p : Ptr) (number address : Nat) (s : Str) (m : Mem) : Out (Ptr × Str × Mem) :=
  (gdbCall A s m).bind fun (c, m) =>
  match c with
  | some (nt, s) =>
    (gdbNames p nt m).bind fun m =>
    (gdbLocation A s m).bind fun (l, m) =>
    match l with
    | none => (free 16 p false m).bind fun m => .ok (0, [], m)
    | some (file, line, s) =>
      (setTexts p (fun l => l.set 2 file) m).bind fun m =>
      (gdbData p number line false address m).bind fun m => .ok (p, s, m)
  | none =>
    if 0 < (skipString s c!"<signal handler called>").1 then
      (gdbData p number (2 ^ 32 - 1) true address m).bind fun m => .ok (p, (skipString s c!"<signal handler called>").2, m)
    else (free 16 p false m).bind fun m => .ok (0, [], m)

/-- `sr_gdb_frame_parse_header` (lib/gdb_frame.c:1086-1177) with `sr_gdb_frame_new` (lib/gdb_frame.c:67-73). -/
def gdbHeader (A : Allocator) (s : Str) (m : Mem) : Out (Ptr × Str × Mem) :=
  (alloc A (newRecord .gdbFrame) m).bind fun (p, m) =>
  (Gdb.frameStart s).bind fun n =>
  match n with
  | none => (free 16 p false m).bind fun m => .ok (0, [], m)
  | some (number, s) =>
    (gdbAddress A s m).bind fun (address, r, m) =>
    match r with
    | some (nt, s) =>
      (gdbNames p nt m).bind fun m =>
      (gdbLocation A s m).bind fun (l, m) =>
      match l with
      | none => (gdbData p number (2 ^ 32 - 1) false address m).bind fun m => .ok (p, s, m)
      | some (file, line, s) =>
        (setTexts p (fun l => l.set 2 file) m).bind fun m =>
        (gdbData p number line false address m).bind fun m => .ok (p, s, m)
    | none => gdbWithout A p number address s m

/-- `sr_gdb_frame_parse` (lib/gdb_frame.c:322-346). -/
def gdbFrame (A : Allocator) (s : Str) (m : Mem) : Out (Ptr × Str × Mem) :=
  (gdbHeader A s m).bind fun (p, _, m) =>
  if p = 0 then .ok (0, s, m)
  else if peek (Gdb.findNext s) = '\x00' then .ok (p, Gdb.findNext s, m)
  else (advance (Gdb.findNext s)).bind fun t => .ok (p, t, m)

/-! ## Threads and stack traces -/

/-- `if (prev) append(prev, item) else owner->member = item` (lib/gdb_thread.c:413-419, lib/gdb_stacktrace.c:465-471); `prev` is the
last of the list. -/
def gdbAppend (p last q : Ptr) (m : Mem) : Out Mem :=
  if last ≠ 0 then appendLoop 1 last q m
  else (readRecord m p).bind fun r => writeRecord m p { r with a := q }

/-- The loop over the frames (lib/gdb_thread.c:411-424): the last frame, and the rest. -/
def gdbFrames (A : Allocator) (p : Ptr) : Nat → Ptr → Str → Mem → Out (Ptr × Str × Mem)
  | 0, _, _, _ => .ub
  | fuel + 1, last, s, m =>
    (gdbFrame A s m).bind fun (q, t, m) =>
    if q = 0 then .ok (last, s, m) else (gdbAppend p last q m).bind fun m => gdbFrames A p fuel q t m

/-- The frames of a thread and what is returned (lib/gdb_thread.c:407-435). -/
def gdbThreadFrames (A : Allocator) (p : Ptr) (number tid : Nat) (s : Str) (m : Mem) : Out (Ptr × Str × Mem) :=
  (setData p [(number : Int), (tid : Int)] m).bind fun m =>
  (gdbFrames A p (s.length + 1) 0 s m).bind fun (_, t, m) =>
  (readRecord m p).bind fun r =>
  if r.a = 0 then (free 16 p false m).bind fun m => .ok (0, s, m) else .ok (p, t, m)

/-- `sr_gdb_thread_parse` (lib/gdb_thread.c:308-435). -/
def gdbThread (A : Allocator) (s : Str) (m : Mem) : Out (Ptr × Str × Mem) :=
  (alloc A (newRecord .gdbThread) m).bind fun (p, m) =>
  if (skipString s c!"Thread").1 = 0 then gdbThreadFrames A p 0 (2 ^ 32 - 1) s m
  else
    (Gdb.threadHeader (skipString s c!"Thread").2).bind fun h =>
    match h with
    | none => (free 16 p false m).bind fun m => .ok (0, s, m)
    | some (number, tid, s) => gdbThreadFrames A p number tid s m

/-- The loop over the threads (lib/gdb_stacktrace.c:463-472). -/
def gdbThreads (A : Allocator) (p : Ptr) : Nat → Ptr → Str → Mem → Out (Ptr × Str × Mem)
  | 0, _, _, _ => .ub
  | fuel + 1, last, s, m =>
    (gdbThread A s m).bind fun (q, t, m) =>
    if q = 0 then .ok (last, s, m) else (gdbAppend p last q m).bind fun m => gdbThreads A p fuel q t m

/-- The loop of `sr_gdb_sharedlib_parse` (lib/gdb_sharedlib.c:177-248): `first`. The name is a growing text. The members are written
before the structure is linked; nothing reads the list meanwhile. -/
def gdbLibsLoop (A : Allocator) : Nat → Ptr → Ptr → Str → Mem → Out (Ptr × Mem)
  | 0, first, _, _, m => .ok (first, m)
  | fuel + 1, first, current, tmp, m =>
    match Gdb.libRange tmp with
    | none => .ok (first, m)
    | some (lo, hi, t) =>
      match Gdb.libSymbols t with
      | none => .ok (first, m)
      | some (symbols, t) =>
        (alloc A (.text []) m).bind fun (b, m) =>
        (bufAdd A b ((skipWs t).takeWhile fun c => c ≠ '\n') m).bind fun (b, m) =>
        (alloc A (newRecord .gdbLib) m).bind fun (q, m) =>
        (setTexts q (fun l => l.set 0 b) m).bind fun m =>
        (setData q [(lo : Int), (hi : Int), symbols] m).bind fun m =>
        (if current ≠ 0 then link current q m else .ok m).bind fun m =>
        (advance ((skipWs t).dropWhile fun c => c ≠ '\n')).bind fun rest =>
        gdbLibsLoop A fuel (if current ≠ 0 then first else q) q rest m

/-- `sr_gdb_sharedlib_parse` (lib/gdb_sharedlib.c:165-251). -/
def gdbLibs (A : Allocator) (s : Str) (m : Mem) : Out (Ptr × Mem) :=
  match Gdb.findSection true s with
  | none => .ok (0, m)
  | some t => gdbLibsLoop A (t.length + 1) 0 0 t m

/-- `*frame` at the end of `sr_gdb_stacktrace_parse_header` (lib/gdb_stacktrace.c:559-560). -/
def gdbCrash (A : Allocator) (s : Str) (m : Mem) : Out (Option (Ptr × Str) × Mem) :=
  (gdbFrame A s m).bind fun (q, t, m) => .ok (if q = 0 then none else some (q, t), m)

/-- `sr_gdb_stacktrace_parse_header` (lib/gdb_stacktrace.c:483-561): `none` is the failure; otherwise `*frame`, which may be NULL,
and the rest. -/
def gdbTraceHeader (A : Allocator) (s : Str) (m : Mem) : Out (Option (Ptr × Str) × Mem) :=
  match strstrI c!"\nThread " s, strstrI c!"\n#" s with
  | some t, some f =>
    if f + 1 < t + 1 then gdbCrash A (s.drop (f + 1)) m
    else .ok (some (0, s.drop (t + 1)), m)
  | some t, none => .ok (some (0, s.drop (t + 1)), m)
  | none, some f => gdbCrash A (s.drop (f + 1)) m
  | none, none => .ok (none, m)

/-- `sr_gdb_stacktrace_parse` (lib/gdb_stacktrace.c:441-481). -/
def gdbTrace (A : Allocator) (s : Str) (m : Mem) : Out (Ptr × Str × Mem) :=
  (alloc A (newRecord .gdbTrace) m).bind fun (p, m) =>
  (gdbLibs A s m).bind fun (libs, m) =>
  (readRecord m p).bind fun r =>
  (writeRecord m p { r with data := [(2 ^ 32 - 1 : Nat)], b := libs }).bind fun m =>
  (gdbTraceHeader A s m).bind fun (h, m) =>
  match h with
  | none => (free (s.length + 16) p false m).bind fun m => .ok (0, s, m)
  | some (crash, t) =>
    (readRecord m p).bind fun r =>
    (writeRecord m p { r with c := crash }).bind fun m =>
    (gdbThreads A p (t.length + 1) 0 t m).bind fun (_, t, m) =>
    (readRecord m p).bind fun r =>
    if r.a = 0 then (free (s.length + 16) p false m).bind fun m => .ok (0, s, m) else .ok (p, t, m)

end Satyr.Heap
