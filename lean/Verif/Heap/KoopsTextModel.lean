import Verif.Heap.TextModel
import Verif.Text.KoopsModel
/-!
# Model of memory: reading kernel oopses from text (lib/koops_frame.c:241-590, lib/koops_stacktrace.c:233-519)

What does not use memory is taken from `Verif/Text/KoopsModel.lean`. No function reports a message. The members of frames that are
not pointers are written at the end; nothing reads them before.
-/
namespace Satyr.Heap
open Satyr.CStr
open Satyr.Text

/-- `g_free(*member); *member = NULL` (lib/koops_frame.c:511-512, 554-555, 577-582). -/
def dropText (p : Ptr) (k : Kind) (t : Text) (s : State) : Out State :=
  (readRecord s.mem p).bind fun r =>
  (freeBlock s.mem (r.texts.getD ((texts k).idxOf t) 0)).bind fun m =>
  (writeRecord m p { r with texts := r.texts.set ((texts k).idxOf t) 0 }).bind fun m => .ok ⟨m, s.err⟩

/-- `sr_koops_parse_module_name` (lib/koops_frame.c:494-518) with the member `t` of the frame at `p`: the rest, if there is a
name. -/
def koopsModule (A : Allocator) (p : Ptr) (t : Text) (inp : Str) (s : State) : Out (Option Str × State) :=
  (skipChar inp '[').bind fun (ok, u) =>
  if ok = false then .ok (none, s)
  else
    (parseMember A p .koopsFrame t u c!" \t\n]" s).bind fun (ok, u, s) =>
    if ok = false then .ok (none, s)
    else
      (skipChar u ']').bind fun (ok, u) =>
      if ok = false then (dropText p .koopsFrame t s).bind fun s => .ok (none, s) else .ok (some u, s)

/-- The offset and length of a function, its module and the closing parenthesis (lib/koops_frame.c:549-589). -/
def koopsTail (A : Allocator) (p : Ptr) (tf tm : Text) (parenthesis : Bool) (inp : Str) (s : State) :
    Out (Option ((Nat × Nat) × Str) × State) :=
  (skipChar inp '+').bind fun (ok, u) =>
  if ok = false then .ok (none, s)
  else
    (parseHex0xUint64 u).bind fun (_, off, u) =>
    (skipChar u '/').bind fun (ok, u) =>
    if ok = false then (dropText p .koopsFrame tf s).bind fun s => .ok (none, s)
    else
      (parseHex0xUint64 u).bind fun (_, len, u) =>
      (Koops.skipBlanks u).bind fun u =>
      (koopsModule A p tm u s).bind fun (has, s) =>
      (Koops.skipBlanks (has.getD u)).bind fun u =>
      (Koops.closeIf parenthesis ')' u).bind fun (ok, u) =>
      if ok then .ok (some ((off.getD 0, len.getD 0), u), s)
      else
        (dropText p .koopsFrame tf s).bind fun s =>
        if has.isSome then (dropText p .koopsFrame tm s).bind fun s => .ok (none, s) else .ok (none, s)

/-- `sr_koops_parse_function` (lib/koops_frame.c:520-590) with the members `tf` and `tm` of the frame at `p`: the offset, the length
and the rest. -/
def koopsFunction (A : Allocator) (p : Ptr) (tf tm : Text) (inp : Str) (s : State) : Out (Option ((Nat × Nat) × Str) × State) :=
  (skipChar inp '(').bind fun (parenthesis, u) =>
  (parseHex0xUint64 u).bind fun (n, _, v) =>
  if n ≠ 0 then
    (Koops.closeIf parenthesis ')' v).bind fun (ok, v) => .ok (if ok then some ((0, 0), v) else none, s)
  else
    (parseMember A p .koopsFrame tf u c!" \t\n)+<" s).bind fun (ok, u, s) =>
    if ok = false then .ok (none, s) else koopsTail A p tf tm parenthesis u s

/-- The members of a frame that are not pointers. -/
def koopsData (address : Nat) (reliable : Bool) (offset length fromAddress fromOffset fromLength : Nat) : List Int :=
  [(address : Int), if reliable then 1 else 0, (offset : Int), (length : Int), (fromAddress : Int), (fromOffset : Int), (fromLength : Int)]

/-- The members of a frame in `koops_frame_parse_ppc` (lib/koops_frame.c:251-280). -/
def koopsPpcMembers (A : Allocator) (p : Ptr) (inp : Str) (s : State) : Out (Option Str × State) :=
  (Koops.parseAddress inp).bind fun (_, u) =>
  match u with
  | none => .ok (none, s)
  | some u =>
    (Koops.skipBlanks u).bind fun u =>
    (Koops.parseAddress u).bind fun (address, u) =>
    match u with
    | none => .ok (none, s)
    | some u =>
      (Koops.skipBlanks u).bind fun u =>
      (skipChar u '.').bind fun (_, u) =>
      (koopsFunction A p .functionName .moduleName u s).bind fun (f, s) =>
      match f with
      | none => .ok (none, s)
      | some ((off, len), u) =>
        (Koops.skipBlanks u).bind fun u =>
        (Koops.skipBlanks (skipString u c!"(unreliable)").2).bind fun v =>
        (Koops.lineEnd v).bind fun e =>
        match e with
        | none => .ok (none, s)
        | some rest =>
          (storeData p (koopsData address ((skipString u c!"(unreliable)").1 == 0) off len 0 0 0) s).bind fun s => .ok (some rest, s)

/-- `koops_frame_parse_ppc` (lib/koops_frame.c:241-286). -/
def koopsPpc (A : Allocator) (inp : Str) (s : State) : Out (Ptr × Str × State) :=
  (Koops.skipBlanks inp).bind fun u =>
  (alloc A (newRecord .koopsFrame) s.mem).bind fun (p, m) => (koopsPpcMembers A p u ⟨m, s.err⟩).bind (endFrame p)

/-- The caller at the end of `koops_frame_parse_arm_reduced` (lib/koops_frame.c:315-335). -/
def koopsArmFrom (A : Allocator) (p : Ptr) (address : Nat) (reliable : Bool) (inp : Str) (s : State) : Out (Option Str × State) :=
  (Koops.skipBlanks inp).bind fun u =>
  if (skipString u c!"from").1 = 0 then .ok (none, s)
  else
    (Koops.skipBlanks (skipString u c!"from").2).bind fun u =>
    (Koops.parseAddress u).bind fun (fromAddress, u) =>
    match u with
    | none => .ok (none, s)
    | some u =>
      (Koops.skipBlanks u).bind fun u =>
      (koopsFunction A p .fromFunctionName .fromModuleName u s).bind fun (f, s) =>
      match f with
      | none => .ok (none, s)
      | some ((off, len), u) =>
        (storeData p (koopsData address reliable 0 0 fromAddress off len) s).bind fun s => .ok (some u, s)

/-- The members of a frame in `koops_frame_parse_arm_reduced` (lib/koops_frame.c:296-335). -/
def koopsArmMembers (A : Allocator) (p : Ptr) (inp : Str) (s : State) : Out (Option Str × State) :=
  (Koops.parseAddress inp).bind fun (address, u) =>
  match u with
  | none => .ok (none, s)
  | some u =>
    (Koops.skipBlanks u).bind fun u =>
    (skipChar u '?').bind fun (question, u) =>
    (Koops.skipBlanks u).bind fun u =>
    (skipChar u '(').bind fun (ok, u) =>
    if ok = false then .ok (none, s)
    else
      (parseMember A p .koopsFrame .functionName u c!" \t\n)+<" s).bind fun (ok, u, s) =>
      if ok = false then .ok (none, s)
      else
        (skipChar u ')').bind fun (ok, u) =>
        if ok = false then .ok (none, s) else koopsArmFrom A p address (!question) u s

/-- `koops_frame_parse_arm_reduced` (lib/koops_frame.c:288-340). -/
def koopsArm (A : Allocator) (inp : Str) (s : State) : Out (Ptr × Str × State) :=
  (Koops.skipBlanks inp).bind fun u =>
  (alloc A (newRecord .koopsFrame) s.mem).bind fun (p, m) => (koopsArmMembers A p u ⟨m, s.err⟩).bind (endFrame p)

/-- The caller of a frame (lib/koops_frame.c:388-412): its address, offset and length. -/
def koopsFrom (A : Allocator) (p : Ptr) (inp : Str) (s : State) : Out (Option ((Nat × Nat × Nat) × Str) × State) :=
  if (skipString inp c!"from").1 = 0 then .ok (some ((0, 0, 0), inp), s)
  else
    (Koops.skipBlanks (skipString inp c!"from").2).bind fun u =>
    (Koops.parseAddress u).bind fun (address, u) =>
    match u with
    | none => .ok (none, s)
    | some u =>
      (Koops.skipBlanks u).bind fun u =>
      (koopsFunction A p .fromFunctionName .fromModuleName u s).bind fun (f, s) =>
      match f with
      | none => .ok (none, s)
      | some ((off, len), u) => (Koops.skipBlanks u).bind fun u => .ok (some ((address, off, len), u), s)

/-- The module after the caller (lib/koops_frame.c:414-418). -/
def koopsLate (A : Allocator) (p : Ptr) (inp : Str) (s : State) : Out (Str × State) :=
  (readRecord s.mem p).bind fun r =>
  if r.texts.getD ((texts .koopsFrame).idxOf .moduleName) 0 ≠ 0 then .ok (inp, s)
  else
    (koopsModule A p .moduleName inp s).bind fun (u, s) =>
    match u with
    | none => .ok (inp, s)
    | some u => (Koops.skipBlanks u).bind fun u => .ok (u, s)

/-- The members of a frame after the address (lib/koops_frame.c:369-439). -/
def koopsBody (A : Allocator) (p : Ptr) (parenthesis : Bool) (address : Nat) (inp : Str) (s : State) : Out (Option Str × State) :=
  (Koops.skipBlanks inp).bind fun u =>
  (skipChar u '?').bind fun (question, u) =>
  (Koops.skipBlanks u).bind fun u =>
  (koopsFunction A p .functionName .moduleName u s).bind fun (f, s) =>
  match f with
  | none => .ok (none, s)
  | some ((off, len), u) =>
    (Koops.skipBlanks u).bind fun u =>
    (koopsFrom A p u s).bind fun (c, s) =>
    match c with
    | none => .ok (none, s)
    | some ((fromAddress, fromOff, fromLen), u) =>
      (koopsLate A p u s).bind fun (u, s) =>
      (Koops.generalEnd parenthesis u).bind fun e =>
      match e with
      | none => .ok (none, s)
      | some rest =>
        (storeData p (koopsData address (!question) off len fromAddress fromOff fromLen) s).bind fun s => .ok (some rest, s)

/-- The members of a frame in `sr_koops_frame_parse` (lib/koops_frame.c:358-439). -/
def koopsMembers (A : Allocator) (p : Ptr) (inp : Str) (s : State) : Out (Option Str × State) :=
  (skipChar inp '(').bind fun (parenthesis, u) =>
  (Koops.parseAddress u).bind fun (address, v) =>
  match v with
  | some v => koopsBody A p parenthesis address v s
  | none =>
    (parseHex0xUint64 u).bind fun (n, x, v) =>
    if n ≠ 0 then
      (Koops.lineEnd v).bind fun e =>
      match e with
      | none => .ok (none, s)
      | some rest => (storeData p (koopsData (x.getD 0) false 0 0 0 0 0) s).bind fun s => .ok (some rest, s)
    else koopsBody A p parenthesis address u s

/-- `sr_koops_frame_parse` after the two special formats (lib/koops_frame.c:353-439). -/
def koopsGeneral (A : Allocator) (inp : Str) (s : State) : Out (Ptr × Str × State) :=
  (Koops.skipBlanks inp).bind fun u =>
  (alloc A (newRecord .koopsFrame) s.mem).bind fun (p, m) => (koopsMembers A p u ⟨m, s.err⟩).bind (endFrame p)

/-- `sr_koops_frame_parse` (lib/koops_frame.c:342-440). -/
def koopsFrame (A : Allocator) (inp : Str) (s : State) : Out (Ptr × Str × State) :=
  (koopsPpc A inp s).bind fun (q, rest, s) =>
  if q ≠ 0 then .ok (q, rest, s)
  else
    (koopsArm A inp s).bind fun (q, rest, s) =>
    if q ≠ 0 then .ok (q, rest, s) else koopsGeneral A inp s

/-- The part of `parse_IP` for `RIP:` (lib/koops_stacktrace.c:241-256). -/
def koopsRip (A : Allocator) (inp : Str) (s : State) : Out (Ptr × Str × State) :=
  (skipCharSpan inp c!" \t").bind fun (n, u) =>
  if n = 0 then .ok (0, [], s)
  else
    (skipCharCspan u c!" \t").bind fun (n, u) =>
    if n = 0 then .ok (0, [], s)
    else
      (skipCharSpan u c!" \t").bind fun (n, u) => if n = 0 then .ok (0, [], s) else koopsFrame A u s

/-- The members of a frame in `parse_IP` for `EIP:` (lib/koops_stacktrace.c:264-285). -/
def koopsEipMembers (A : Allocator) (p : Ptr) (inp : Str) (s : State) : Out (Option Str × State) :=
  (Koops.parseAddress inp).bind fun (address, u) =>
  match u with
  | none => .ok (none, s)
  | some u =>
    (Koops.skipBlanks u).bind fun u =>
    (skipChar u '?').bind fun (question, u) =>
    (Koops.skipBlanks u).bind fun u =>
    (koopsFunction A p .functionName .moduleName u s).bind fun (f, s) =>
    match f with
    | none => .ok (none, s)
    | some ((off, len), u) => (storeData p (koopsData address (!question) off len 0 0 0) s).bind fun s => .ok (some u, s)

/-- The part of `parse_IP` for `EIP:` (lib/koops_stacktrace.c:257-286). -/
def koopsEip (A : Allocator) (inp : Str) (s : State) : Out (Ptr × Str × State) :=
  (skipCharSpan inp c!" \t").bind fun (n, u) =>
  if n = 0 then .ok (0, [], s)
  else (alloc A (newRecord .koopsFrame) s.mem).bind fun (p, m) => (koopsEipMembers A p u ⟨m, s.err⟩).bind (endFrame p)

/-- `parse_IP` (lib/koops_stacktrace.c:234-293). -/
def koopsIp (A : Allocator) (inp : Str) (s : State) : Out (Ptr × Str × State) :=
  (Koops.skipBlanks inp).bind fun u =>
  (if (skipString u c!"RIP:").1 ≠ 0 then koopsRip A (skipString u c!"RIP:").2 s
    else if (skipString u c!"EIP:").1 ≠ 0 then koopsEip A (skipString u c!"EIP:").2 s else .ok (0, [], s)).bind fun (q, u, s) =>
  if q = 0 then .ok (0, [], s) else (skipCharCspan u c!"\n").bind fun (_, u) => .ok (q, u, s)

/-- `parse_alt_stack_start` (lib/koops_stacktrace.c:312-329): the label or NULL, and the rest. -/
def koopsLabel (A : Allocator) (inp : Str) (m : Mem) : Out (Ptr × Str × Mem) :=
  (Koops.skipBlanks inp).bind fun u =>
  (skipChar u '<').bind fun (ok, u) =>
  if ok = false then .ok (0, inp, m)
  else
    (parseCharCspan u c!"> \t\n").bind fun (label, u) =>
    match label with
    | none => .ok (0, inp, m)
    | some label =>
      (alloc A (.text label) m).bind fun (w, m) =>
      (skipChar u '>').bind fun (ok, u) =>
      if ok then .ok (w, u, m) else (freeBlock m w).bind fun m => .ok (0, inp, m)

/-- The loop of `sr_koops_stacktrace_parse_modules` (lib/koops_stacktrace.c:469-514): the texts in the array, and the rest. The
text `therest` is not freed. -/
def koopsModulesLoop (A : Allocator) : Nat → List Ptr → Nat → Str → Mem → Out (List Ptr × Str × Mem)
  | 0, _, _, _, _ => .ub
  | fuel + 1, ps, ws, inp, m =>
    (parseCharCspan inp c!" \t\n[").bind fun (name, u) =>
    match name with
    | some name =>
      (alloc A (.text name) m).bind fun (q, m) =>
      (skipCharSpan u c!" \t").bind fun (ws, u) => koopsModulesLoop A fuel (ps ++ [q]) ws u m
    | none =>
      if peek inp = '\n' then
        (advance inp).bind fun u =>
        (Koops.listContinues u).bind fun more =>
        if more = false then .ok (ps, inp, m)
        else if peek u ≠ ' ' ∧ ws = 0 ∧ ps ≠ [] then
          (parseCharCspan u c!" \t\n[").bind fun (therest, v) =>
          match therest with
          | none => .ok (ps, u, m)
          | some therest =>
            (alloc A (.text therest) m).bind fun (_, m) =>
            match m (ps.getLastD 0) with
            | some (.text old) =>
              (alloc A (.text (old ++ therest)) m).bind fun (tmp, m) =>
              (freeBlock m (ps.getLastD 0)).bind fun m =>
              (skipCharSpan v c!" \t").bind fun (ws, v) => koopsModulesLoop A fuel (ps.dropLast ++ [tmp]) ws v m
            | _ => .ub
        else (skipCharSpan u c!" \t").bind fun (ws, u) => koopsModulesLoop A fuel ps ws u m
      else .ok (ps, inp, m)

/-- The array with these texts. It is a list of structures, as in `storeModules`; here it is allocated when all texts are there
(in lib/koops_stacktrace.c:466 and 478 before). -/
def linkModules (A : Allocator) : List Ptr → Mem → Out (Ptr × Mem)
  | [], m => alloc A (.record { kind := .module, texts := [0] }) m
  | q :: l, m =>
    (linkModules A l m).bind fun (next, m) => alloc A (.record { kind := .module, texts := [q], next := next }) m

/-- `sr_koops_stacktrace_parse_modules` (lib/koops_stacktrace.c:454-519). -/
def koopsModules (A : Allocator) (inp : Str) (m : Mem) : Out (Ptr × Str × Mem) :=
  (Koops.skipBlanks inp).bind fun u =>
  if (skipString u c!"Modules linked in:").1 = 0 then .ok (0, inp, m)
  else
    (skipCharSpan (skipString u c!"Modules linked in:").2 c!" \t").bind fun (ws, u) =>
    (koopsModulesLoop A (u.length + 1) [] ws u m).bind fun (ps, rest, m) =>
    (linkModules A ps m).bind fun (q, m) => .ok (q, rest, m)

/-- The module list, if there was none yet (lib/koops_stacktrace.c:369-371): whether it was there. -/
def koopsFirstModules (A : Allocator) (p : Ptr) (inp : Str) (m : Mem) : Out (Bool × Str × Mem) :=
  (readRecord m p).bind fun r =>
  if r.b ≠ 0 then .ok (false, inp, m)
  else
    (koopsModules A inp m).bind fun (q, u, m) =>
    (readRecord m p).bind fun r =>
    (writeRecord m p { r with b := q }).bind fun m => .ok (q != 0, u, m)

/-- `frame->special_stack = g_strdup(alt_stack)` (lib/koops_stacktrace.c:399-400). -/
def koopsMark (A : Allocator) (w q : Ptr) (s : State) : Out State :=
  if w = 0 then .ok s
  else
    match s.mem w with
    | some (.text label) => storeText A q .koopsFrame .specialStack label s
    | _ => .ub

/-- A frame (lib/koops_stacktrace.c:397-406). -/
def koopsStore (A : Allocator) (n : Nat) (p w : Ptr) (inp : Str) (m : Mem) : Out (Str × Mem) :=
  (koopsFrame A inp ⟨m, none⟩).bind fun (q, u, s) =>
  if q ≠ 0 then (koopsMark A w q s).bind fun s => (storeItem n p q s).bind fun s => .ok (u, s.mem)
  else (skipCharCspan inp c!"\n").bind fun (_, u) => .ok (u, s.mem)

/-- A line that is neither the module list nor the instruction pointer (lib/koops_stacktrace.c:383-406); `w` is `alt_stack`. -/
def koopsTraceLine (A : Allocator) (n : Nat) (p w : Ptr) (inp : Str) (m : Mem) : Out (Ptr × Str × Mem) :=
  (Koops.altEnd inp).bind fun (ends, u) =>
  (if ends then freeBlock m w else .ok m).bind fun m =>
  (koopsLabel A u m).bind fun (new, u, m) =>
  (koopsStore A n p (if new ≠ 0 then new else if ends then 0 else w) u m).bind fun (u, m) =>
  .ok (if new ≠ 0 then new else if ends then 0 else w, u, m)

/-- A line after its timestamp (lib/koops_stacktrace.c:369-406); `ip` is `parsed_ip`. -/
def koopsLine (A : Allocator) (n : Nat) (p w : Ptr) (ip : Bool) (inp : Str) (m : Mem) : Out (Ptr × Bool × Str × Mem) :=
  (koopsFirstModules A p inp m).bind fun (found, u, m) =>
  if found then .ok (w, ip, u, m)
  else
    (if ip then .ok (0, [], ⟨m, none⟩) else koopsIp A inp ⟨m, none⟩).bind fun (q, u, s) =>
    if q ≠ 0 then (prepend p q s.mem).bind fun m => .ok (w, true, u, m)
    else (koopsTraceLine A n p w inp s.mem).bind fun (w, u, m) => .ok (w, ip, u, m)

/-- The loop of `sr_koops_stacktrace_parse` (lib/koops_stacktrace.c:351-410). -/
def koopsLoop (A : Allocator) (n : Nat) (p : Ptr) : Nat → Ptr → Bool → Str → Mem → Out (Ptr × Str × Mem)
  | 0, _, _, _, _ => .ub
  | fuel + 1, w, ip, inp, m =>
    if peek inp = '\x00' then .ok (w, inp, m)
    else
      (Koops.skipBlanks inp).bind fun u =>
      (Koops.skipTimestamp u).bind fun (_, u) =>
      (Koops.skipBlanks u).bind fun u =>
      if (skipString u c!"Last Breaking-Event-Address:\n").1 ≠ 0 then .ok (w, [], m)
      else
        (koopsLine A n p w ip u m).bind fun (w, ip, u, m) =>
        (skipChar u '\n').bind fun (_, u) => koopsLoop A n p fuel w ip u m

/-- `sr_koops_stacktrace_parse` (lib/koops_stacktrace.c:331-416): the stack trace and the rest of the text. -/
def koopsTrace (A : Allocator) (inp : Str) (m : Mem) : Out (Ptr × Str × Mem) :=
  (alloc A (newRecord .koopsTrace) m).bind fun (p, m) =>
  (storeText A p .koopsTrace .rawOops inp ⟨m, none⟩).bind fun s =>
  (storeData p (taintData (Satyr.Koops.parseTaintFlags inp {})) s).bind fun s =>
  (storeText A p .koopsTrace .reason (inp.takeWhile (· ≠ '\n')) s).bind fun s =>
  (koopsLoop A (inp.length + 3) p (inp.length + 1) 0 false inp s.mem).bind fun (w, rest, m) =>
  (freeBlock m w).bind fun m => .ok (p, rest, m)

end Satyr.Heap
