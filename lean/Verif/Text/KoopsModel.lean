import Verif.CStr.Parse
import Verif.Koops.Flags
/-!
# Model of reading kernel oopses (lib/koops_frame.c:241-590, lib/koops_stacktrace.c:193-519)

`none` is the result `NULL`. Running out of fuel is made an undefined outcome, so that a proof that the outcome is defined also
shows that the loops end.
-/
namespace Satyr.Text.Koops
open Satyr.CStr Satyr.Frames Satyr.Koops

/-- `sr_skip_char_span(&local_input, " \t")`, where the number of characters is not used. -/
def skipBlanks (s : Str) : Out Str := do
  let a ← skipCharSpan s c!" \t"
  .ok a.2

/-- A closing character that has to be there if the opening one was. -/
def closeIf (needed : Bool) (c : Char) (s : Str) : Out (Bool × Str) := if needed then skipChar s c else .ok (true, s)

/-- `sr_koops_parse_address` (lib/koops_frame.c:470-492): the value of `*address`, which was 0 before, and the rest. The value is
stored before the closing brackets are read. -/
def parseAddress (s : Str) : Out (Nat × Option Str) := do
  let a ← skipChar s '['
  if a.1 = false then .ok (0, none) else do
  let g ← skipChar a.2 '<'
  let n ← parseHexUint64 g.2
  if n.1 = 0 then .ok (0, none) else do
  let c ← closeIf g.1 '>' n.2.2
  if c.1 = false then .ok (n.2.1.getD 0, none) else do
  let b ← skipChar c.2 ']'
  .ok (n.2.1.getD 0, if b.1 then some b.2 else none)

/-- `sr_koops_parse_module_name` (lib/koops_frame.c:494-518). -/
def parseModuleName (s : Str) : Out (Option (Str × Str)) := do
  let a ← skipChar s '['
  if a.1 = false then .ok none else do
  let n ← parseCharCspan a.2 c!" \t\n]"
  match n.1 with
  | none => .ok none
  | some name => do
    let b ← skipChar n.2 ']'
    .ok (if b.1 then some (name, b.2) else none)

/-- A module name that may be missing, and the rest. -/
def optModule (s : Str) : Out (Option Str × Str) := do
  let m ← parseModuleName s
  match m with
  | none => .ok (none, s)
  | some (name, t) => .ok (some name, t)

/-- What `sr_koops_parse_function` stores. -/
structure Function where
  name : Option Str := none
  offset : Nat := 0
  length : Nat := 0
  module : Option Str := none
  deriving Repr, DecidableEq

/-- The offset and length of a function, its module and the closing parenthesis (lib/koops_frame.c:549-589). -/
def functionTail (name : Str) (parenthesis : Bool) (s : Str) : Out (Option (Function × Str)) := do
  let plus ← skipChar s '+'
  if plus.1 = false then .ok none else do
  let off ← parseHex0xUint64 plus.2
  let slash ← skipChar off.2.2 '/'
  if slash.1 = false then .ok none else do
  let len ← parseHex0xUint64 slash.2
  let t ← skipBlanks len.2.2
  let m ← optModule t
  let t ← skipBlanks m.2
  let c ← closeIf parenthesis ')' t
  .ok (if c.1 then some (⟨some name, off.2.1.getD 0, len.2.1.getD 0, m.1⟩, c.2) else none)

/-- `sr_koops_parse_function` (lib/koops_frame.c:520-590). On failure the frame is freed by every caller, so that what was
stored before is not modelled. -/
def parseFunction (s : Str) : Out (Option (Function × Str)) := do
  let p ← skipChar s '('
  let x ← parseHex0xUint64 p.2
  if x.1 ≠ 0 then do
    let c ← closeIf p.1 ')' x.2.2
    .ok (if c.1 then some ({}, c.2) else none)
  else do
  let n ← parseCharCspan p.2 c!" \t\n)+<"
  match n.1 with
  | none => .ok none
  | some name => functionTail name p.1 n.2

/-- The end of the line or of the text (lib/koops_frame.c:277, 432). -/
def lineEnd (s : Str) : Out (Option Str) :=
  if peek s = '\x00' then .ok (some s) else do
  let b ← skipChar s '\n'
  .ok (if b.1 then some b.2 else none)

/-- A frame with an address and a function. -/
def frameOf (address : Nat) (reliable : Bool) (f : Function) : KoopsFrame :=
  { address, reliable, functionName := f.name, functionOffset := f.offset, functionLength := f.length, moduleName := f.module }

/-- The function that called, with its address. -/
def withFrom (k : KoopsFrame) (address : Nat) (f : Function) : KoopsFrame :=
  { k with
      fromAddress := address, fromFunctionName := f.name, fromFunctionOffset := f.offset, fromFunctionLength := f.length
      fromModuleName := f.module }

/-- `koops_frame_parse_ppc` (lib/koops_frame.c:241-286). -/
def parsePpc (s : Str) : Out (Option (KoopsFrame × Str)) := do
  let s ← skipBlanks s
  let sp ← parseAddress s
  match sp.2 with
  | none => .ok none
  | some s => do
    let s ← skipBlanks s
    let a ← parseAddress s
    match a.2 with
    | none => .ok none
    | some s => do
      let s ← skipBlanks s
      let d ← skipChar s '.'
      let f ← parseFunction d.2
      match f with
      | none => .ok none
      | some (f, s) => do
        let s ← skipBlanks s
        let u := skipString s c!"(unreliable)"
        let s ← skipBlanks u.2
        let e ← lineEnd s
        .ok (e.map fun s => (frameOf a.1 (u.1 == 0) f, s))

/-- The caller at the end of `koops_frame_parse_arm_reduced` (lib/koops_frame.c:315-335). -/
def armFrom (k : KoopsFrame) (s : Str) : Out (Option (KoopsFrame × Str)) := do
  let s ← skipBlanks s
  if (skipString s c!"from").1 = 0 then .ok none else do
  let s ← skipBlanks (skipString s c!"from").2
  let a ← parseAddress s
  match a.2 with
  | none => .ok none
  | some s => do
    let s ← skipBlanks s
    let f ← parseFunction s
    .ok (f.map fun r => (withFrom k a.1 r.1, r.2))

/-- `koops_frame_parse_arm_reduced` (lib/koops_frame.c:288-340). -/
def parseArm (s : Str) : Out (Option (KoopsFrame × Str)) := do
  let s ← skipBlanks s
  let a ← parseAddress s
  match a.2 with
  | none => .ok none
  | some s => do
    let s ← skipBlanks s
    let q ← skipChar s '?'
    let s ← skipBlanks q.2
    let p ← skipChar s '('
    if p.1 = false then .ok none else do
    let n ← parseCharCspan p.2 c!" \t\n)+<"
    match n.1 with
    | none => .ok none
    | some name => do
      let c ← skipChar n.2 ')'
      if c.1 = false then .ok none else armFrom (frameOf a.1 (!q.1) ⟨some name, 0, 0, none⟩) c.2

/-- The caller of a frame (lib/koops_frame.c:388-412): nothing if it is not there, `none` is the failure. -/
def generalFrom (s : Str) : Out (Option (Nat × Function × Str)) :=
  if (skipString s c!"from").1 = 0 then .ok (some (0, {}, s)) else do
  let s ← skipBlanks (skipString s c!"from").2
  let a ← parseAddress s
  match a.2 with
  | none => .ok none
  | some s => do
    let s ← skipBlanks s
    let f ← parseFunction s
    match f with
    | none => .ok none
    | some (f, s) => do
      let s ← skipBlanks s
      .ok (some (a.1, f, s))

/-- The module after the caller (lib/koops_frame.c:414-418). -/
def lateModule (m : Option Str) (s : Str) : Out (Option Str × Str) :=
  if m.isSome then .ok (m, s) else do
  let r ← optModule s
  if r.1.isSome then do
    let t ← skipBlanks r.2
    .ok (r.1, t)
  else .ok r

/-- The closing parenthesis and the end of the line (lib/koops_frame.c:420-439). -/
def generalEnd (parenthesis : Bool) (s : Str) : Out (Option Str) :=
  if parenthesis then do
    let c ← skipChar s ')'
    if c.1 = false then .ok none else do
    let t ← skipBlanks c.2
    lineEnd t
  else lineEnd s

/-- `sr_koops_frame_parse` after the address (lib/koops_frame.c:369-439). -/
def generalBody (parenthesis : Bool) (address : Nat) (s : Str) : Out (Option (KoopsFrame × Str)) := do
  let s ← skipBlanks s
  let q ← skipChar s '?'
  let s ← skipBlanks q.2
  let f ← parseFunction s
  match f with
  | none => .ok none
  | some (f, s) => do
    let s ← skipBlanks s
    let r ← generalFrom s
    match r with
    | none => .ok none
    | some (fa, ff, s) => do
      let m ← lateModule f.module s
      let e ← generalEnd parenthesis m.2
      .ok (e.map fun s => (withFrom (frameOf address (!q.1) { f with module := m.1 }) fa ff, s))

/-- `sr_koops_frame_parse` after the two special formats (lib/koops_frame.c:353-439). -/
def parseGeneral (s : Str) : Out (Option (KoopsFrame × Str)) := do
  let s ← skipBlanks s
  let p ← skipChar s '('
  let a ← parseAddress p.2
  match a.2 with
  | some s => generalBody p.1 a.1 s
  | none => do
    let x ← parseHex0xUint64 p.2
    if x.1 ≠ 0 then do
      let e ← lineEnd x.2.2
      .ok (e.map fun s => ({ address := x.2.1.getD 0 }, s))
    else generalBody p.1 a.1 p.2

/-- `sr_koops_frame_parse` (lib/koops_frame.c:342-440). -/
def parseFrame (s : Str) : Out (Option (KoopsFrame × Str)) := do
  let f ← parsePpc s
  match f with
  | some r => .ok (some r)
  | none => do
    let f ← parseArm s
    match f with
    | some r => .ok (some r)
    | none => parseGeneral s

/-- `sr_koops_skip_timestamp` (lib/koops_frame.c:443-468). -/
def skipTimestamp (s : Str) : Out (Bool × Str) := do
  let a ← skipChar s '['
  if a.1 = false then .ok (false, s) else do
  let w ← skipCharSpan a.2 c!" \t\r\n\x0b\x0c"
  let n ← skipCharSpan w.2 digits10
  if n.1 = 0 then .ok (false, s) else do
  let d ← skipChar n.2 '.'
  if d.1 = false then .ok (false, s) else do
  let n ← skipCharSpan d.2 digits10
  if n.1 = 0 then .ok (false, s) else do
  let b ← skipChar n.2 ']'
  .ok (if b.1 then (true, b.2) else (false, s))

/-- The part of `parse_IP` for `RIP:` (lib/koops_stacktrace.c:241-256). -/
def ripFrame (s : Str) : Out (Option (KoopsFrame × Str)) := do
  let w ← skipCharSpan s c!" \t"
  if w.1 = 0 then .ok none else do
  let x ← skipCharCspan w.2 c!" \t"
  if x.1 = 0 then .ok none else do
  let w ← skipCharSpan x.2 c!" \t"
  if w.1 = 0 then .ok none else parseFrame w.2

/-- The part of `parse_IP` for `EIP:` (lib/koops_stacktrace.c:257-286). -/
def eipFrame (s : Str) : Out (Option (KoopsFrame × Str)) := do
  let w ← skipCharSpan s c!" \t"
  if w.1 = 0 then .ok none else do
  let a ← parseAddress w.2
  match a.2 with
  | none => .ok none
  | some s => do
    let s ← skipBlanks s
    let q ← skipChar s '?'
    let s ← skipBlanks q.2
    let f ← parseFunction s
    .ok (f.map fun r => (frameOf a.1 (!q.1) r.1, r.2))

/-- The two forms of the instruction pointer (lib/koops_stacktrace.c:241-288). -/
def ipStart (s : Str) : Out (Option (KoopsFrame × Str)) :=
  if (skipString s c!"RIP:").1 ≠ 0 then ripFrame (skipString s c!"RIP:").2
  else if (skipString s c!"EIP:").1 ≠ 0 then eipFrame (skipString s c!"EIP:").2 else .ok none

/-- `parse_IP` (lib/koops_stacktrace.c:234-293). -/
def parseIp (s : Str) : Out (Option (KoopsFrame × Str)) := do
  let s ← skipBlanks s
  let r ← ipStart s
  match r with
  | none => .ok none
  | some (f, s) => do
    let t ← skipCharCspan s c!"\n"
    .ok (some (f, t.2))

/-- `parse_alt_stack_end` (lib/koops_stacktrace.c:295-310): whether it was there, and the rest. -/
def altEnd (s : Str) : Out (Bool × Str) := do
  let t ← skipBlanks s
  let a ← skipCharSpan t c!"<"
  if a.1 = 0 then .ok (false, s) else do
  let o := skipString a.2 c!"EO"
  if o.1 = 0 then .ok (false, s) else do
  let i ← skipCharSpan o.2 c!"IE"
  if i.1 = 0 then .ok (false, s) else do
  let b ← skipCharSpan i.2 c!">"
  .ok (if b.1 = 0 then (false, s) else (true, b.2))

/-- `parse_alt_stack_start` (lib/koops_stacktrace.c:312-329): the label, and the rest. -/
def altStart (s : Str) : Out (Option Str × Str) := do
  let t ← skipBlanks s
  let a ← skipChar t '<'
  if a.1 = false then .ok (none, s) else do
  let n ← parseCharCspan a.2 c!"> \t\n"
  match n.1 with
  | none => .ok (none, s)
  | some label => do
    let b ← skipChar n.2 '>'
    .ok (if b.1 then (some label, b.2) else (none, s))

/-- A keyword, separators and digits, as they follow the module list (lib/koops_stacktrace.c:429-440): whether all of it was
there, and the position that is left, also if only a part of it was there. -/
def keywordNumber (word : Str) (s : Str) : Out (Bool × Str) :=
  if (skipString s word).1 = 0 then .ok (false, s) else do
  let a ← skipCharSpan (skipString s word).2 c!" :"
  if a.1 = 0 then .ok (false, a.2) else do
  let n ← skipCharSpan a.2 digits10
  .ok (n.1 != 0, n.2)

/-- `module_list_continues` (lib/koops_stacktrace.c:418-452). -/
def listContinues (s : Str) : Out Bool := do
  let t ← skipTimestamp s
  if t.1 then .ok false else
  if (skipString s c!"Pid: ").1 ≠ 0 then .ok false else do
  let c ← keywordNumber c!"CPU" s
  if c.1 then .ok false else do
  let i ← keywordNumber c!"irq event stamp" c.2
  if i.1 then .ok false else
  if (skipString i.2 c!"CR2: ").1 = 0 then .ok true else do
  let n ← skipCharSpan (skipString i.2 c!"CR2: ").2 digits16
  .ok (n.1 == 0)

/-- What is done in the loop of `sr_koops_stacktrace_parse_modules` with one more module (lib/koops_stacktrace.c:471-484): the
list and the size of the array. A store outside the array is undefined. -/
def storeModule (mods : List Str) (size : Nat) (m : Str) : Out (List Str × Nat) :=
  let size' := if mods.length + 1 = size then size * 2 else size
  if mods.length < size' then .ok (mods ++ [m], size') else .ub

/-- The loop of `sr_koops_stacktrace_parse_modules` (lib/koops_stacktrace.c:469-514): the modules, the size of the array, and the
rest. `ws` is the number of blanks before the current position. (The size is taken as unlimited: it does not fit `int` any more
from 2^30 modules on.) -/
def modulesLoop : Nat → List Str → Nat → Nat → Str → Out (List Str × Nat × Str)
  | 0, _, _, _, _ => .ub
  | fuel + 1, mods, size, ws, s => do
    let m ← parseCharCspan s c!" \t\n["
    match m.1 with
    | some name => do
      let r ← storeModule mods size name
      let w ← skipCharSpan m.2 c!" \t"
      modulesLoop fuel r.1 r.2 w.1 w.2
    | none =>
      if peek s = '\n' then do
        let t ← advance s
        let c ← listContinues t
        if c = false then .ok (mods, size, s) else
        if peek t ≠ ' ' ∧ ws = 0 ∧ mods ≠ [] then do
          let r ← parseCharCspan t c!" \t\n["
          match r.1 with
          | none => .ok (mods, size, t)
          | some rest => do
            let w ← skipCharSpan r.2 c!" \t"
            modulesLoop fuel (mods.dropLast ++ [mods.getLastD [] ++ rest]) size w.1 w.2
        else do
          let w ← skipCharSpan t c!" \t"
          modulesLoop fuel mods size w.1 w.2
      else .ok (mods, size, s)

/-- `sr_koops_stacktrace_parse_modules` (lib/koops_stacktrace.c:454-519). The terminating `NULL` has to fit the array. -/
def parseModules (s : Str) : Out (Option (List Str × Str)) := do
  let t ← skipBlanks s
  if (skipString t c!"Modules linked in:").1 = 0 then .ok none else do
  let w ← skipCharSpan (skipString t c!"Modules linked in:").2 c!" \t"
  let r ← modulesLoop (w.2.length + 1) [] 20 w.1 w.2
  if r.1.length < r.2.1 then .ok (some (r.1, r.2.2)) else .ub

/-- What `sr_koops_stacktrace_parse` has read so far. -/
structure State where
  modules : Option (List Str) := none
  ip : Bool := false
  stack : Option Str := none
  frames : List KoopsFrame := []
  deriving Repr, DecidableEq

/-- The module list, if there was none yet (lib/koops_stacktrace.c:369-371). -/
def firstModules (st : State) (s : Str) : Out (Option (List Str × Str)) :=
  if st.modules.isSome then .ok none else parseModules s

/-- The instruction pointer, if there was none yet (lib/koops_stacktrace.c:373-374). -/
def firstIp (st : State) (s : Str) : Out (Option (KoopsFrame × Str)) := if st.ip then .ok none else parseIp s

/-- A line that is neither the module list nor the instruction pointer (lib/koops_stacktrace.c:383-406). -/
def traceLine (st : State) (s : Str) : Out (State × Str) := do
  let e ← altEnd s
  let b ← altStart e.2
  let stack := if b.1.isSome then b.1 else if e.1 then none else st.stack
  let f ← parseFrame b.2
  match f with
  | some (f, t) => .ok ({ st with stack, frames := st.frames ++ [{ f with specialStack := stack }] }, t)
  | none => do
    let c ← skipCharCspan b.2 c!"\n"
    .ok ({ st with stack }, c.2)

/-- A line after its timestamp (lib/koops_stacktrace.c:369-406). -/
def line (st : State) (s : Str) : Out (State × Str) := do
  let m ← firstModules st s
  match m with
  | some (ms, t) => .ok ({ st with modules := some ms }, t)
  | none => do
    let i ← firstIp st s
    match i with
    | some (f, t) => .ok ({ st with frames := f :: st.frames, ip := true }, t)
    | none => traceLine st s

/-- The loop of `sr_koops_stacktrace_parse` (lib/koops_stacktrace.c:351-410). -/
def traceLoop : Nat → State → Str → Out (State × Str)
  | 0, _, _ => .ub
  | fuel + 1, st, s =>
    if peek s = '\x00' then .ok (st, s) else do
    let s ← skipBlanks s
    let t ← skipTimestamp s
    let s ← skipBlanks t.2
    if (skipString s c!"Last Breaking-Event-Address:\n").1 ≠ 0 then .ok (st, []) else do
    let r ← line st s
    let n ← skipChar r.2 '\n'
    traceLoop fuel r.1 n.2

/-- `sr_koops_stacktrace_parse` (lib/koops_stacktrace.c:331-416): the stack trace and the rest of the text. -/
def parseTrace (s : Str) : Out (KoopsTrace × Str) := do
  let reason := (s.takeWhile (· ≠ '\n'))
  let r ← traceLoop (s.length + 1) {} s
  .ok ({ taint := parseTaintFlags s {}, modules := r.1.modules, rawOops := some s, frames := r.1.frames, reason := some reason }, r.2)

end Satyr.Text.Koops
