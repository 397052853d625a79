import Verif.Gdb.TraceModel
import Verif.Text.LocModel
/-!
# Model of the locations kept while gdb stack traces are read (lib/gdb_frame.c, lib/gdb_thread.c, lib/gdb_stacktrace.c)

The functions of `FrameModel` and `TraceModel` again, with the location that the C functions update. `inl` is the location and the
message of a failure. The callers of the functions that read names, calls and file locations drop the location of a failure, so it is
not modelled there. Columns are counted without overflow, which needs a text of more than 2^31 characters.
-/
namespace Satyr.Gdb
open Satyr.CStr Satyr.Normalize Satyr.Frames

/-- `location->column += n`. -/
def right (l : Loc) (n : Int) : Loc := ⟨l.line, l.column + n⟩

/-- `location->column += n` for each of the parts that were read between `s` and its rest `t`. -/
def over (l : Loc) (s t : Str) : Loc := right l (s.length - t.length)

/-- The suffix ` const` of the first part (lib/gdb_frame.c:695-714). -/
def constSuffixL (space : Char) (s : Str) (l : Loc) : Out (Option ((Str × Char × Str) × Loc)) :=
  if (skipString s c!"const").1 = 0 then .ok (some (([], space, s), l)) else do
  let p ← parseCharLimited (skipString s c!"const").2 srSpace
  match p.1 with
  | none => .ok none
  | some c => .ok (some ((space :: c!"const", c, p.2), right (l.eat space) (skipString s c!"const").1))

/-- The second part (lib/gdb_frame.c:712-761). -/
def secondPartL (space : Char) (s : Str) (l : Loc) : Out (Option ((Option Str × Char × Str) × Loc)) := do
  let r ← chunk false s
  match r with
  | none => .ok (some ((none, space, s), l))
  | some (x, t) => do
    let q ← nameParts (t.length + 1) t
    let p ← parseCharLimited q.2 srSpace
    match p.1 with
    | none => .ok none
    | some c => .ok (some ((some (x ++ q.1), c, p.2), over (over (l.eat space) s t) t q.2))

/-- The suffix ` const` of the last part and the step back to the space (lib/gdb_frame.c:768-790). -/
def lastConstL (space : Char) (s : Str) (l : Loc) : Out (Option ((Str × Str) × Loc)) :=
  if (skipString s c!"const").1 = 0 then .ok (some (([], space :: s), l)) else do
  let b ← skipCharLimited (skipString s c!"const").2 srSpace
  .ok (if b.1 then some ((space :: c!"const", (skipString s c!"const").2), right (l.eat space) (skipString s c!"const").1) else none)

/-- The parts of `sr_gdb_frame_parse_function_name` after the first space (lib/gdb_frame.c:693-799). -/
def afterSpaceL (buf0 : Str) (space : Char) (s : Str) (l : Loc) : Out (Option (((Str × Option Str) × Str) × Loc)) := do
  let k ← constSuffixL space s l
  match k with
  | none => .ok none
  | some ((x, space, s), l) => do
    let r ← secondPartL space s l
    match r with
    | none => .ok none
    | some ((buf1, space, s), l) => do
      let k ← lastConstL space s l
      match k with
      | none => .ok none
      | some ((suffix, s), l) => .ok (some ((nameAndType (buf0 ++ x) buf1 suffix, s), l))

/-- `sr_gdb_frame_parse_function_name` (lib/gdb_frame.c:598-800). -/
def functionNameL (s : Str) (l : Loc) : Out (Option (((Str × Option Str) × Str) × Loc)) :=
  match parseString s c!"??" with
  | (some x, t) => .ok (some (((x, none), t), right l 2))
  | (none, _) => do
    let a ← nameStart s
    match a with
    | none => .ok none
    | some (x, t) => do
      let q ← nameParts (t.length + 1) t
      let p ← parseCharLimited q.2 srSpace
      match p.1 with
      | none => .ok none
      | some c => afterSpaceL (x ++ q.1) c p.2 (over (over l s t) t q.2)

/-- The loop of `sr_gdb_frame_skip_function_args` (lib/gdb_frame.c:814-856). -/
def argsLoopL : Nat → Nat → Bool → Bool → Str → Loc → Out ((Nat × Bool × Bool × Str) × Loc)
  | 0, _, _, _, _, _ => .ub
  | fuel + 1, depth, string, escape, s, l =>
    let cut := !escape && startsWith s c!"(truncated)"
    match argStep (peek s) (if cut then 0 else depth) (if cut then false else string) escape with
    | none => .ok ((if cut then 0 else depth, if cut then false else string, escape, s), l)
    | some (d, st, e) => do
      let t ← advance s
      if peek t = '\x00' then .ok ((d, st, e, t), l.eat (peek s)) else argsLoopL fuel d st e t (l.eat (peek s))

/-- `sr_gdb_frame_skip_function_args` (lib/gdb_frame.c:802-873). -/
def skipArgsL (s : Str) (l : Loc) : Out (Option (Str × Loc)) := do
  let a ← skipChar s '('
  if a.1 = false then .ok none else do
  let r ← argsLoopL (a.2.length + 1) 0 false false a.2 (right l 1)
  if r.1.1 ≠ 0 ∨ r.1.2.1 ∨ r.1.2.2.1 then .ok none else do
  let b ← skipChar r.1.2.2.2 ')'
  .ok (if b.1 then some (b.2, right r.2 1) else none)

/-- `sr_location_add` with the location of what `sr_skip_char_span_location` (lib/utils.c:303-314) skips. -/
def spaceL (s : Str) (l : Loc) : Loc := l.add (strspnLocation s c!" \n").2.line (strspnLocation s c!" \n").2.column

/-- `sr_gdb_frame_parse_function_call` (lib/gdb_frame.c:875-920). -/
def functionCallL (s : Str) (l : Loc) : Out (Option (((Str × Option Str) × Str) × Loc)) := do
  let n ← functionNameL s l
  match n with
  | none => .ok none
  | some ((nt, s), l) => do
    let w ← skipCharSpan s c!" \n"
    if w.1 = 0 then .ok none else do
    let r ← skipArgsL w.2 (spaceL s l)
    .ok (r.map fun t => ((nt, t.1), t.2))

/-- `sr_gdb_frame_parse_address_in_function` (lib/gdb_frame.c:922-1009). -/
def addressInFunctionL (s : Str) (l : Loc) : Out (Nat × Option (((Str × Option Str) × Str) × Loc)) := do
  let a ← parseHex0xUint64 s
  if a.1 = 0 then do
    let r ← functionCallL s l
    .ok (2 ^ 64 - 1, r)
  else do
    let b ← afterAddress a.2.2
    match b with
    | none => .ok (a.2.1.getD 0, none)
    | some t => do
      let r ← functionCallL t (over (right l a.1) a.2.2 t)
      .ok (a.2.1.getD 0, r)

/-- `sr_gdb_frame_parse_file_location` (lib/gdb_frame.c:1011-1084). -/
def fileLocationL (s : Str) (l : Loc) : Out (Option ((Option Str × Nat × Str) × Loc)) := do
  let w ← skipCharSpan s c!" \n"
  if w.1 = 0 then .ok none else do
  let k ← fileKeyword w.2
  match k with
  | none => .ok none
  | some t => do
    let f ← parseCharSpan t fileChars
    match f.1 with
    | none => .ok none
    | some name => do
      let n ← fileLine f.2
      match n with
      | none => .ok none
      | some (line, u) => .ok (some ((sourceName name, line, u), over (over (over (spaceL s l) w.2 t) t f.2) f.2 u))

/-- The messages of `sr_gdb_frame_parse_header` (lib/gdb_frame.c:1099, 1148-1149, 1168). -/
def noFrameStart : Str := c!"Frame start sequence expected."
@[inherit_doc noFrameStart] def noFile : Str := c!"Function call in the frame header misses mandatory \"at file.c:xy\" section"
@[inherit_doc noFrameStart] def noVariant : Str := c!"Frame header variant not recognized."

/-- `sr_location_add(location, internal_location.line, internal_location.column)`. -/
def inside (l m : Loc) : Loc := l.add m.line m.column

/-- `sr_gdb_frame_parse_header` after the optional call with an address (lib/gdb_frame.c:1134-1172). -/
def headerWithoutAddressL (number address : Nat) (s : Str) (l : Loc) : Out ((Loc × Str) ⊕ ((GdbFrame × Str) × Loc)) := do
  let c ← functionCallL s Loc.init
  match c with
  | some ((nt, s), m) => do
    let k ← fileLocationL s Loc.init
    match k with
    | none => .ok (.inl (inside l m, noFile))
    | some ((file, line, s), n) => .ok (.inr ((locatedFrame number address nt file line, s), inside (inside l m) n))
  | none =>
    .ok (if 0 < (skipString s c!"<signal handler called>").1
      then .inr (({ newFrame with number, address, signalHandlerCalled := true }, (skipString s c!"<signal handler called>").2),
        right l (skipString s c!"<signal handler called>").1)
      else .inl (l, noVariant))

/-- `sr_gdb_frame_parse_header` (lib/gdb_frame.c:1086-1177). -/
def parseHeaderL (s : Str) (l : Loc) : Out ((Loc × Str) ⊕ ((GdbFrame × Str) × Loc)) := do
  let n ← frameStart s
  match n with
  | none => .ok (.inl (l, noFrameStart))
  | some (number, t) => do
    let l := over l s t
    let a ← addressInFunctionL t Loc.init
    match a.2 with
    | some ((nt, s), m) => do
      let k ← fileLocationL s Loc.init
      match k with
      | none => .ok (.inr ((callFrame number a.1 nt, s), inside l m))
      | some ((file, line, s), n) => .ok (.inr ((locatedFrame number a.1 nt file line, s), inside (inside l m) n))
    | none => headerWithoutAddressL number a.1 t l

/-- `findfirstabnul` (lib/gdb_frame.c:301-320) for `"\n#"` and `"\nThread"`: the location. -/
def findNextL : Str → Loc → Loc
  | [], l => l
  | c :: s, l => if startsWith (c :: s) c!"\n#" ∨ startsWith (c :: s) c!"\nThread" then l else findNextL s (l.eat c)

/-- `sr_gdb_frame_parse` (lib/gdb_frame.c:322-346). The search begins at the start of the frame, with the location of the end of its
header. -/
def parseFrameL (s : Str) (l : Loc) : Out ((Loc × Str) ⊕ ((GdbFrame × Str) × Loc)) := do
  let h ← parseHeaderL s l
  match h with
  | .inl e => .ok (.inl e)
  | .inr ((f, _), l) => do
    let t := findNext s
    let l := findNextL s l
    if peek t = '\x00' then .ok (.inr ((f, t), l)) else do
    let u ← advance t
    .ok (.inr ((f, u), l.eat (peek t)))

/-- `sr_gdb_thread_parse_lwp` where it is called (lib/gdb_thread.c:353, 379). -/
def optLwpL (tid : Nat) (s : Str) (l : Loc) : Out ((Nat × Str) × Loc) := do
  let r ← optLwp tid s
  .ok (r, over l s r.2)

/-- The messages of `sr_gdb_thread_parse` (lib/gdb_thread.c:327, 337, 347, 372, 384, 394). -/
def noSpace : Str := c!"Space expected after the \"Thread\" keyword."
@[inherit_doc noSpace] def noNumber : Str := c!"Thread number expected."
@[inherit_doc noSpace] def noSpace2 : Str := c!"Space expected after the thread number."
@[inherit_doc noSpace] def noId : Str := c!"The thread identification number expected."
@[inherit_doc noSpace] def noParen : Str := c!"Closing parenthesis for Thread expected."
@[inherit_doc noSpace] def noColon : Str := c!"Expected a colon followed by a newline ':\\n'."

/-- The part `(Thread ...)` of the header (lib/gdb_thread.c:355-388). The closing parenthesis does not move the location. -/
def threadSectionL (tid : Nat) (s : Str) (l : Loc) : Out ((Loc × Str) ⊕ ((Nat × Str) × Loc)) :=
  if (skipString s c!"(Thread ").1 = 0 then .ok (.inr ((tid, s), l)) else do
  let l := right l (skipString s c!"(Thread ").1
  let d ← skipThreadId (skipString s c!"(Thread ").2
  if d.1 = 0 then .ok (.inl (l, noId)) else do
  let l := right l d.1
  let w ← skipCharSequence d.2 ' '
  let r ← optLwpL tid w.2 (right l w.1)
  let b ← skipChar r.1.2 ')'
  .ok (if b.1 then .inr ((r.1.1, b.2), r.2) else .inl (r.2, noParen))

/-- The header of a thread after the keyword (lib/gdb_thread.c:320-398). -/
def threadHeaderL (s : Str) (l : Loc) : Out ((Loc × Str) ⊕ ((Nat × Nat × Str) × Loc)) := do
  let w ← skipCharSequence s ' '
  let l := right l w.1
  if w.1 = 0 then .ok (.inl (l, noSpace)) else do
  let n ← parseUint32 w.2
  let l := right l n.1
  if n.1 = 0 then .ok (.inl (l, noNumber)) else do
  let w ← skipCharSequence n.2.2 ' '
  let l := right l w.1
  if w.1 = 0 then .ok (.inl (l, noSpace2)) else do
  let r ← optLwpL (2 ^ 32 - 1) w.2 l
  let t ← threadSectionL r.1.1 r.1.2 r.2
  match t with
  | .inl e => .ok (.inl e)
  | .inr ((tid, s), l) =>
    .ok (if (skipString s c!":\n").1 = 0 then .inl (l, noColon) else .inr ((n.2.1.getD 0, tid, (skipString s c!":\n").2), l.add 2 0))

/-- The frames of a thread and what is returned (lib/gdb_thread.c:407-435). If there is none, the message is that of the first frame,
and the location is still that of its beginning. A failure of a later frame is the end of the thread, and its location is not looked
at. -/
def threadFramesL (number tid : Nat) (s : Str) (l : Loc) : Out ((Loc × Str) ⊕ (GdbThread × Str)) := do
  let f ← parseFrameL s Loc.init
  match f with
  | .inl (_, message) => .ok (.inl (l, message))
  | .inr ((f, t), _) => do
    let r ← framesLoop s.length t
    .ok (.inr ({ newThread with number, tid, frames := f :: r.1 }, r.2))

/-- `sr_gdb_thread_parse` (lib/gdb_thread.c:308-435). -/
def parseThreadL (s : Str) (l : Loc) : Out ((Loc × Str) ⊕ (GdbThread × Str)) :=
  if (skipString s c!"Thread").1 = 0 then threadFramesL 0 (2 ^ 32 - 1) s l else do
  let h ← threadHeaderL (skipString s c!"Thread").2 (right l (skipString s c!"Thread").1)
  match h with
  | .inl e => .ok (.inl e)
  | .inr ((number, tid, s), l) => threadFramesL number tid s l

/-- The message of `sr_gdb_stacktrace_parse_header` (lib/gdb_stacktrace.c:554). -/
def noFrameNoThread : Str := c!"No frame and no thread found."

/-- The crash frame (lib/gdb_stacktrace.c:558-560). -/
def crashFrameL (s : Str) (l : Loc) : Out ((Loc × Str) ⊕ ((Option GdbFrame × Str) × Loc)) := do
  let r ← parseFrameL s l
  match r with
  | .inl e => .ok (.inl e)
  | .inr ((f, t), l) => .ok (.inr ((some f, t), l))

/-- `sr_location_add(location, line + 1, 0)` for a text found at `m` (lib/gdb_stacktrace.c:494-515, 524, 534-536, 547). -/
def nextLine (l m : Loc) : Loc := l.add (m.line + 1) 0

/-- `sr_gdb_stacktrace_parse_header` (lib/gdb_stacktrace.c:483-561). Of two positions in the text the first has the longer rest. -/
def parseTraceHeaderL (s : Str) (l : Loc) : Out ((Loc × Str) ⊕ ((Option GdbFrame × Str) × Loc)) :=
  match strstrLocation s c!"\nThread ", strstrLocation s c!"\n#" with
  | (some t, lt), (some f, lf) =>
    if t.tail.length < f.tail.length then crashFrameL f.tail (nextLine l lf)
    else .ok (.inr ((none, t.tail), nextLine l lt))
  | (some t, lt), (none, _) => .ok (.inr ((none, t.tail), nextLine l lt))
  | (none, _), (some f, lf) => crashFrameL f.tail (nextLine l lf)
  | (none, _), (none, _) => .ok (.inl (l, noFrameNoThread))

/-- `sr_gdb_stacktrace_parse` (lib/gdb_stacktrace.c:441-481) with `sr_gdb_stacktrace_init` (lib/gdb_stacktrace.c:87-94). The failure of
a later thread is the end of the stack trace, and its location is not looked at. -/
def parseTraceL (s : Str) (l : Loc) : Out ((Loc × Str) ⊕ (GdbTrace × Str)) := do
  let libs ← parseLibs s
  let h ← parseTraceHeaderL s l
  match h with
  | .inl e => .ok (.inl e)
  | .inr ((crash, t), l) => do
    let r ← parseThreadL t l
    match r with
    | .inl e => .ok (.inl e)
    | .inr (th, u) => do
      let r ← threadsLoop t.length u
      .ok (.inr ({ threads := th :: r.1, crash, libs, crashTid := 2 ^ 32 - 1 }, r.2))

/-- `sr_stacktrace_parse` for gdb: `stacktrace_parse_wrapper` (lib/generic_stacktrace.c:78-93); `inr` is the error message. -/
def parseText (inp : Str) : Out (GdbTrace ⊕ Str) := do
  match ← parseTraceL inp Loc.init with
  | .inl (loc, message) => .ok (.inr (loc.text (some message)))
  | .inr (t, _) => .ok (.inl t)

end Satyr.Gdb
