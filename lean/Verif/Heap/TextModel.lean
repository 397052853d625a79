import Verif.Heap.JsonModel
import Verif.Text.PythonLocModel
import Verif.Text.RubyLocModel
import Verif.Text.JsModel
/-!
# Model of memory: reading stack traces from text

The functions that read Python, Ruby and JavaScript stack traces, with the memory that they use. What does not use memory is taken
from the models in `Verif/Text`. Lines and columns of locations are left out; `State.err` is `location->message`. The members
of frames that are not pointers are written at the end; nothing reads them before.
-/
namespace Satyr.Heap
open Satyr.CStr
open Satyr.Text

/-- Where `location->message` points to (include/location.h:52). -/
inductive Message
  | unset
  /-- A constant text of the program. -/
  | constant (s : Str)
  /-- Allocated memory. -/
  | block (p : Ptr)
  deriving DecidableEq, Repr

/-- The member `t` of the structure at `p`, which must be a text (e.g. `frame->file_name`, lib/python_frame.c:261-263). -/
def memberText (p : Ptr) (k : Kind) (t : Text) (m : Mem) : Out Str :=
  (readRecord m p).bind fun r =>
  match m (r.texts.getD ((texts k).idxOf t) 0) with
  | some (.text s) => .ok s
  | _ => .ub

/-- `new = g_strdup(..); g_free(frame->member); frame->member = new` (lib/python_frame.c:267-269, lib/utils.c:742-744). -/
def replaceText (A : Allocator) (p : Ptr) (k : Kind) (t : Text) (new : Str) (s : State) : Out State :=
  (alloc A (.text new) s.mem).bind fun (q, m) =>
  (readRecord m p).bind fun r =>
  (freeBlock m (r.texts.getD ((texts k).idxOf t) 0)).bind fun m =>
  (writeRecord m p { r with texts := r.texts.set ((texts k).idxOf t) q }).bind fun m => .ok ⟨m, s.err⟩

/-- `frame->member = anonymize_path(frame->member)` (lib/utils.c:730-748). -/
def anonymizeMember (A : Allocator) (p : Ptr) (k : Kind) (t : Text) (s : State) : Out State :=
  (memberText p k t s.mem).bind fun path =>
  if startsWith path c!"/home/" then
    match strchr (path.drop 6) '/' with
    | some rest => replaceText A p k t (c!"/home/anonymized" ++ rest) s
    | none => .ok s
  else .ok s

/-- `sr_parse_char_cspan(&local_input, reject, &frame->member)` (lib/utils.c:337-346). -/
def parseMember (A : Allocator) (p : Ptr) (k : Kind) (t : Text) (inp reject : Str) (s : State) : Out (Bool × Str × State) :=
  (parseCharCspan inp reject).bind fun (str, rest) =>
  match str with
  | none => .ok (false, rest, s)
  | some str => (storeText A p k t str s).bind fun s => .ok (true, rest, s)

/-- `location->message = g_strdup(msg)` followed by a failure (e.g. lib/python_frame.c:255-258, lib/ruby_frame.c:241-242). -/
def failWith {α : Type} (A : Allocator) (msg : Str) (s : State) : Out (Option α × State) :=
  (setError A msg s).bind fun s => .ok (none, s)

/-- `sr_*_new` (lib/python_frame.c:60-74, lib/ruby_frame.c:61-75, lib/js_frame.c:66-80, lib/python_stacktrace.c:81-95,
lib/ruby_stacktrace.c:80-94, lib/js_stacktrace.c:82-96). -/
def newRecord (k : Kind) : Cell := .record { kind := k, texts := List.replicate (texts k).length 0 }

/-- The end of a function that reads a frame: the frame, or NULL after `fail:`, where the frame is freed
(lib/python_frame.c:346-352, lib/ruby_frame.c:335-341, lib/js_frame.c:350-355). -/
def endFrame (p : Ptr) : Option Str × State → Out (Ptr × Str × State)
  | (some rest, s) => .ok (p, rest, s)
  | (none, s) => (free 16 p false s.mem).bind fun m => .ok (0, [], ⟨m, s.err⟩)

/-! ## Python -/

/-- Taking off angle brackets (lib/python_frame.c:261-270, 324-333); the text from which the last character was cut off is freed at
once. -/
def stripMember (A : Allocator) (p : Ptr) (t : Text) (s : State) : Out (Bool × State) :=
  (memberText p .pythonFrame t s.mem).bind fun str =>
  if str.length > 0 ∧ peek str = '<' ∧ str.getLast? = some '>' then
    (replaceText A p .pythonFrame t str.dropLast.tail s).bind fun s => .ok (true, s)
  else .ok (false, s)

/-- The name of the function, or the end of the line (lib/python_frame.c:294-334). -/
def pythonName (A : Allocator) (p : Ptr) (inp : Str) (s : State) : Out (Option (Bool × Str) × State) :=
  if (skipString inp c!", in ").1 = 0 then
    if peek (skipString inp c!", in ").2 ≠ '\n' then failWith A c!"Function name separator not found." s
    else
      (storeText A p .pythonFrame .functionName c!"syntax" s).bind fun s => .ok (some (true, (skipString inp c!", in ").2), s)
  else
    (parseMember A p .pythonFrame .functionName (skipString inp c!", in ").2 c!"\n" s).bind fun (ok, t, s) =>
    if ok = false then failWith A c!"Unable to find the newline character identifying the end of function name." s
    else (stripMember A p .functionName s).bind fun (special, s) => .ok (some (special, t), s)

/-- The source line (lib/python_frame.c:339-345). -/
def pythonSource (A : Allocator) (p : Ptr) (inp : Str) (s : State) : Out (Str × State) :=
  if (skipString inp c!"    ").1 = 4 then
    (parseMember A p .pythonFrame .lineContents (skipString inp c!"    ").2 c!"\n" s).bind fun (ok, t, s) =>
    if ok = false then .ok (t, s) else (skipChar t '\n').bind fun (_, t) => .ok (t, s)
  else .ok ((skipString inp c!"    ").2, s)

/-- The members of a frame (lib/python_frame.c:252-348). -/
def pythonMembers (A : Allocator) (p : Ptr) (inp : Str) (s : State) : Out (Option Str × State) :=
  (parseMember A p .pythonFrame .fileName inp c!"\"" s).bind fun (ok, t, s) =>
  if ok = false then failWith A c!"Unable to find the '\"' character identifying the beginning of file name." s
  else
    (stripMember A p .fileName s).bind fun (specialFile, s) =>
    (anonymizeMember A p .pythonFrame .fileName s).bind fun s =>
    if (skipString t c!"\", line ").1 = 0 then failWith A c!"Line separator not found." s
    else
      (parseUint32 (skipString t c!"\", line ").2).bind fun (_, line, t) =>
      match line with
      | none => failWith A c!"Line number not found." s
      | some line =>
        (pythonName A p t s).bind fun (fn, s) =>
        match fn with
        | none => .ok (none, s)
        | some (special, t) =>
          (skipChar t '\n').bind fun (_, t) =>
          (pythonSource A p t s).bind fun (t, s) =>
          (storeData p [if specialFile then 1 else 0, if special then 1 else 0, (line : Int)] s).bind fun s => .ok (some t, s)

/-- `sr_python_frame_parse` (lib/python_frame.c:204-353): the frame or NULL, and the rest of the text. -/
def pythonFrame (A : Allocator) (inp : Str) (s : State) : Out (Ptr × Str × State) :=
  (Python.skipErrorLine inp).bind fun inp =>
  if (skipString inp c!"  File \"").1 = 0 then
    (setError A c!"Frame header not found." s).bind fun s => .ok (0, inp, s)
  else
    (alloc A (newRecord .pythonFrame) s.mem).bind fun (p, m) =>
    (pythonMembers A p (skipString inp c!"  File \"").2 ⟨m, s.err⟩).bind fun r =>
    (endFrame p r).bind fun (q, rest, s) => .ok (q, if q = 0 then inp else rest, s)

/-- `frame->next = stacktrace->frames; stacktrace->frames = frame` (lib/python_stacktrace.c:203-204). -/
def prepend (p q : Ptr) (m : Mem) : Out Mem :=
  (readRecord m p).bind fun t =>
  (readRecord m q).bind fun f =>
  (writeRecord m q { f with next := t.a }).bind fun m => writeRecord m p { t with a := q }

/-- The loop over the frames (lib/python_stacktrace.c:192-209); the message is that of `frame_location`. -/
def pythonFrames (A : Allocator) (p : Ptr) : Nat → Str → State → Out (Str × State)
  | 0, _, _ => .ub
  | fuel + 1, inp, s =>
    (pythonFrame A inp s).bind fun (q, rest, s) =>
    if q = 0 then .ok (rest, s) else (prepend p q s.mem).bind fun m => pythonFrames A p fuel rest ⟨m, s.err⟩

/-- `sr_python_stacktrace_parse` (lib/python_stacktrace.c:129-231): the stack trace or NULL, the rest of the text, and
`location->message`, which is `c` before. -/
def pythonTrace (A : Allocator) (inp : Str) (m : Mem) (c : Message) : Out (Ptr × Str × Mem × Message) :=
  (Python.startL inp).bind fun start =>
  match start with
  | .inl (_, msg) => .ok (0, inp, m, .constant msg)
  | .inr (t, _) =>
    (alloc A (newRecord .pythonTrace) m).bind fun (p, m) =>
    (pythonFrames A p (t.length + 1) t ⟨m, some 0⟩).bind fun (u, s) =>
    (readRecord s.mem p).bind fun r =>
    if r.a = 0 then
      (free (8 * t.length + 40) p false s.mem).bind fun m => .ok (0, inp, m, .block (s.err.getD 0))
    else
      (parseMember A p .pythonTrace .exceptionName u c!":\n" s).bind fun (ok, u, s) =>
      if ok = false then
        (free (8 * t.length + 40) p false s.mem).bind fun m =>
        .ok (0, inp, m, .constant c!"Unable to find the ':\\n' characters identifying the end of exception name.")
      else .ok (p, u, s.mem, c)

/-! ## Ruby -/

/-- Cutting off the end of a text in allocated memory, and `frame->member = text` (lib/ruby_frame.c:257-259). -/
def adoptText (p : Ptr) (k : Kind) (t : Text) (w : Ptr) (str : Str) (s : State) : Out State :=
  match s.mem w with
  | some (.text _) =>
    (readRecord (s.mem.set w (some (.text str))) p).bind fun r =>
    (writeRecord (s.mem.set w (some (.text str))) p { r with texts := r.texts.set ((texts k).idxOf t) w }).bind fun m => .ok ⟨m, s.err⟩
  | _ => .ub

/-- The file name and line number in front of the backtick (lib/ruby_frame.c:210-262); `w` is `filename_lineno_in`. -/
def rubyFile (A : Allocator) (p w : Ptr) (l : Str) (s : State) : Out (Option Nat × State) :=
  if l.length < 4 ∨ l.drop (l.length - 4) ≠ c!":in " then failWith A c!"Unable to find ':in ' preceding the backtick character." s
  else
    (Ruby.backDigits (l.take (l.length - 4)) (l.take (l.length - 4)).length).bind fun i =>
    (parseUint32 ((l.take (l.length - 4)).drop i)).bind fun (_, line, _) =>
    match line with
    | none => failWith A c!"Unable to find line number before ':in '" s
    | some line =>
      if i = 0 then failWith A c!"Unable to fin the ':' character preceding the line number" s
      else
        (rd (l.take (l.length - 4)) (i - 1)).bind fun c =>
        if c ≠ ':' then failWith A c!"Unable to fin the ':' character preceding the line number" s
        else
          (adoptText p .rubyFrame .fileName w ((l.take (l.length - 4)).take (i - 1)) s).bind fun s =>
          (anonymizeMember A p .rubyFrame .fileName s).bind fun s => .ok (some line, s)

/-- The function name up to the closing quote (lib/ruby_frame.c:301-332). -/
def rubyName (A : Allocator) (p : Ptr) (inp : Str) (s : State) : Out (Option (Bool × Str) × State) :=
  (skipChar inp '<').bind fun (special, t) =>
  (parseMember A p .rubyFrame .functionName t c!"'>" s).bind fun (ok, t, s) =>
  if ok = false then failWith A c!"Unable to find the \"'\" character delimiting the function name." s
  else
    (Ruby.closeSpecial special t).bind fun (ok, t) =>
    if ok = false then failWith A c!"Unable to find the \">\" character delimiting the function name." s
    else
      (skipChar t '\'').bind fun (ok, t) =>
      if ok = false then failWith A c!"Unable to find the \"'\" character delimiting the function name." s
      else .ok (some (special, t), s)

/-- The function (lib/ruby_frame.c:264-335). -/
def rubyFunction (A : Allocator) (p : Ptr) (line : Nat) (inp : Str) (s : State) : Out (Option Str × State) :=
  (skipChar inp '`').bind fun (ok, t) =>
  if ok = false then failWith A c!"Unable to find the '`' character identifying the beginning of function name." s
  else
    (Ruby.blocks (Ruby.rescues (t.length + 1) t 0).2).bind fun block =>
    match block with
    | none => failWith A c!"Unable to parse block depth." s
    | some (block, t') =>
      (rubyName A p t' s).bind fun (fn, s) =>
      match fn with
      | none => .ok (none, s)
      | some (special, t') =>
        (storeData p [if special then 1 else 0, (line : Int), (block : Int), ((Ruby.rescues (t.length + 1) t 0).1 : Int)] s).bind fun s =>
        .ok (some t', s)

/-- `sr_ruby_frame_parse` (lib/ruby_frame.c:191-341). -/
def rubyFrame (A : Allocator) (inp : Str) (s : State) : Out (Ptr × Str × State) :=
  (alloc A (newRecord .rubyFrame) s.mem).bind fun (p, m) =>
  (parseCharCspan inp c!"`").bind fun (l, rest) =>
  match l with
  | none =>
    (failWith A c!"Unable to find the '`' character identifying the beginning of function name." ⟨m, s.err⟩).bind (endFrame p)
  | some l =>
    (alloc A (.text l) m).bind fun (w, m) =>
    (rubyFile A p w l ⟨m, s.err⟩).bind fun (line, s) =>
    match line with
    | none =>
      (free 16 p false s.mem).bind fun m => (freeBlock m w).bind fun m => .ok (0, [], ⟨m, s.err⟩)
    | some line => (rubyFunction A p line rest s).bind (endFrame p)

/-- The class at the end of the message (lib/ruby_stacktrace.c:169-219); `m` is `message_and_class`. -/
def rubyClass (A : Allocator) (p : Ptr) (m : Str) (s : State) : Out (Option Unit × State) :=
  if m.length < 1 ∨ m.drop (m.length - 1) ≠ c!"\n" then
    failWith A c!"Unable to find the new line character after the end of exception class" s
  else if m.length < 2 ∨ m.drop (m.length - 2) ≠ c!")\n" then
    failWith A c!"Unable to find the ')' character identifying the end of exception class" s
  else
    (Ruby.backParen (m.take (m.length - 2)) (m.take (m.length - 2)).length).bind fun i =>
    if ((m.take (m.length - 2)).drop i).length = 0 then
      failWith A c!"Unable to find the '(' character identifying the beginning of the exception class" s
    else
      (storeText A p .rubyTrace .exceptionName ((m.take (m.length - 2)).drop i) s).bind fun s =>
      if i = 0 then failWith A c!"Unable to find the '(' character identifying the beginning of the exception class" s
      else
        (rd (m.take (m.length - 2)) (i - 1)).bind fun c =>
        if c ≠ '(' then failWith A c!"Unable to find the '(' character identifying the beginning of the exception class" s
        else .ok (some (), s)

/-- `last_frame->next = frame` (lib/ruby_stacktrace.c:245, lib/js_stacktrace.c:192). -/
def link (last q : Ptr) (m : Mem) : Out Mem := (readRecord m last).bind fun r => writeRecord m last { r with next := q }

/-- The loop over the frames (lib/ruby_stacktrace.c:230-261). -/
def rubyFrames (A : Allocator) : Nat → Ptr → Str → State → Out (Option Str × State)
  | 0, _, _, _ => .ub
  | fuel + 1, last, inp, s =>
    if peek inp = '\x00' then .ok (some inp, s)
    else if (skipString inp c!"\tfrom ").1 = 0 then failWith A c!"Frame header not found." s
    else
      (rubyFrame A (skipString inp c!"\tfrom ").2 s).bind fun (q, t, s) =>
      (link last q s.mem).bind fun m =>
      if q = 0 then .ok (none, ⟨m, s.err⟩)
      else
        (skipChar t '\n').bind fun (newline, t) =>
        if newline = false ∧ peek t ≠ '\x00' then failWith A c!"Expected newline after stacktrace frame." ⟨m, s.err⟩
        else rubyFrames A fuel q t ⟨m, s.err⟩

/-- `location->message ? location->message : "(unknown reason)"` (lib/ruby_stacktrace.c:143). -/
def messageText (s : State) : Out Str :=
  match s.err with
  | none | some 0 => .ok c!"(unknown reason)"
  | some e =>
    match s.mem e with
    | some (.text t) => .ok t
    | _ => .ub

/-- The rest of the first line and the other frames (lib/ruby_stacktrace.c:147-264); the block of `message_and_class` is freed
before the loop, or after `fail:` when the stack trace has been freed. -/
def rubyRest (A : Allocator) (p q : Ptr) (t : Str) (s : State) : Out (Ptr × Str × State) :=
  if (skipString t c!": ").1 = 0 then
    (setError A c!"Unable to find the colon after first function name." s).bind fun s =>
    (free 40 p false s.mem).bind fun m => .ok (0, [], ⟨m, s.err⟩)
  else
    (parseCharCspan (skipString t c!": ").2 c!"\t").bind fun (msg, t) =>
    match msg with
    | none =>
      (setError A c!"Unable to find the exception type and message." s).bind fun s =>
      (free 40 p false s.mem).bind fun m => .ok (0, [], ⟨m, s.err⟩)
    | some msg =>
      (alloc A (.text msg) s.mem).bind fun (w, m) =>
      (rubyClass A p msg ⟨m, s.err⟩).bind fun (ok, s) =>
      if ok = none then
        (free 40 p false s.mem).bind fun m => (freeBlock m w).bind fun m => .ok (0, [], ⟨m, s.err⟩)
      else
        (freeBlock s.mem w).bind fun m =>
        (rubyFrames A (t.length + 1) q t ⟨m, s.err⟩).bind fun (r, s) =>
        match r with
        | none => (free (8 * t.length + 40) p false s.mem).bind fun m => .ok (0, [], ⟨m, s.err⟩)
        | some u => .ok (p, u, s)

/-- `sr_ruby_stacktrace_parse` (lib/ruby_stacktrace.c:128-270). -/
def rubyTrace (A : Allocator) (inp : Str) (s : State) : Out (Ptr × Str × State) :=
  (alloc A (newRecord .rubyTrace) s.mem).bind fun (p, m) =>
  (rubyFrame A inp ⟨m, s.err⟩).bind fun (q, t, s) =>
  (readRecord s.mem p).bind fun r =>
  (writeRecord s.mem p { r with a := q }).bind fun m =>
  if q = 0 then
    (messageText ⟨m, s.err⟩).bind fun msg =>
    (setError A (c!"Topmost stacktrace frame not found: " ++ msg) ⟨m, s.err⟩).bind fun s =>
    (free 40 p false s.mem).bind fun m => .ok (0, [], ⟨m, s.err⟩)
  else rubyRest A p q t ⟨m, s.err⟩

/-! ## JavaScript -/

/-- The function name in front of a position in parentheses (lib/js_frame.c:234-271). -/
def jsName (A : Allocator) (p : Ptr) (inp : Str) (lo cursor : Nat) (s : State) : Out (Option (Nat × Nat) × State) :=
  (skipCharCspan (inp.drop lo) c!" \n").bind fun (columns, t) =>
  if columns = 0 ∨ peek t ≠ ' ' then .ok (none, s)
  else
    (storeText A p .jsFrame .functionName (strndup (inp.drop lo) columns) s).bind fun s =>
    (skipCharCspan t c!"(\n").bind fun (columns', t) =>
    if columns' = 0 ∨ peek t ≠ '(' then .ok (none, s) else .ok (some (lo + columns + columns' + 1, cursor - 1), s)

/-- The position `file:line:column` that ends at the cursor, and the rest of the line (lib/js_frame.c:281-351). -/
def jsFinish (A : Allocator) (p : Ptr) (inp : Str) (lo cursor : Nat) (s : State) : Out (Option Str × State) :=
  (Js.backColon inp lo cursor).bind fun token =>
  match token with
  | none => .ok (none, s)
  | some token =>
    if token = lo then .ok (none, s)
    else
      (parseUint32 (inp.drop (token + 1))).bind fun (_, column, _) =>
      match column with
      | none => .ok (none, s)
      | some column =>
        (Js.backColon inp lo (token - 1)).bind fun token =>
        match token with
        | none => .ok (none, s)
        | some token =>
          if token = lo then .ok (none, s)
          else
            (parseUint32 (inp.drop (token + 1))).bind fun (_, line, _) =>
            match line with
            | none => .ok (none, s)
            | some line =>
              (Js.strndupTo inp lo token).bind fun file =>
              (storeText A p .jsFrame .fileName file s).bind fun s =>
              (anonymizeMember A p .jsFrame .fileName s).bind fun s =>
              (skipCharCspan (inp.drop lo) c!"\n").bind fun (_, rest) =>
              (storeData p [(line : Int), (column : Int)] s).bind fun s => .ok (some rest, s)

/-- `sr_js_frame_parse_v8` (lib/js_frame.c:186-356). -/
def jsFrame (A : Allocator) (inp : Str) (s : State) : Out (Ptr × Str × State) :=
  (skipCharSpan inp c!" ").bind fun (n1, t) =>
  if (skipString t c!"at ").1 = 0 then .ok (0, [], s)
  else
    (skipCharSpan (skipString t c!"at ").2 c!" ").bind fun (n3, _) =>
    (Js.backSpaces inp (n1 + (skipString t c!"at ").1 + n3)
      (n1 + (skipString t c!"at ").1 + n3 + strchrnulI '\n' (inp.drop (n1 + (skipString t c!"at ").1 + n3)) - 1)).bind fun cursor =>
    (alloc A (newRecord .jsFrame) s.mem).bind fun (p, m) =>
    (rd inp cursor).bind fun ch =>
    if ch = ')' then
      (jsName A p inp (n1 + (skipString t c!"at ").1 + n3) cursor ⟨m, s.err⟩).bind fun (r, s) =>
      match r with
      | none => endFrame p (none, s)
      | some (lo, cursor) => (jsFinish A p inp lo cursor s).bind (endFrame p)
    else (jsFinish A p inp (n1 + (skipString t c!"at ").1 + n3) cursor ⟨m, s.err⟩).bind (endFrame p)

/-- `stacktrace->frames = frame` for the first frame, and `last_frame->next = frame` for the others (lib/js_stacktrace.c:189-192);
`p` is the stack trace. -/
def attach (p last q : Ptr) (m : Mem) : Out Mem :=
  (readRecord m p).bind fun r => if r.a = 0 then writeRecord m p { r with a := q } else link last q m

/-- The loop over the frames (lib/js_stacktrace.c:181-206). -/
def jsFrames (A : Allocator) (p : Ptr) : Nat → Ptr → Str → State → Out (Option Str × State)
  | 0, _, _, _ => .ub
  | fuel + 1, last, inp, s =>
    if peek inp = '\x00' then .ok (some inp, s)
    else
      (jsFrame A inp s).bind fun (q, t, s) =>
      if q = 0 then .ok (none, s)
      else
        (attach p last q s.mem).bind fun m =>
        (skipChar t '\n').bind fun (newline, t) =>
        if newline = false ∧ peek t ≠ '\x00' then .ok (none, ⟨m, s.err⟩) else jsFrames A p fuel q t ⟨m, s.err⟩

/-- The exception and the frames (lib/js_stacktrace.c:140-208). -/
def jsBody (A : Allocator) (p : Ptr) (inp : Str) (s : State) : Out (Option Str × State) :=
  (parseMember A p .jsTrace .exceptionName inp c!":\n" s).bind fun (ok, t, s) =>
  if peek t ≠ ':' then .ok (none, s)
  else if ok = false then .ok (none, s)
  else if (skipString t c!": ").1 = 0 then .ok (none, s)
  else
    (skipToNextLine (skipString t c!": ").2 Loc.init).bind fun (found, t, _) =>
    if found = false then .ok (none, s) else jsFrames A p (t.length + 1) 0 t s

/-- `sr_js_stacktrace_parse_v8` (lib/js_stacktrace.c:133-213) and `sr_js_stacktrace_parse` (lib/js_stacktrace.c:215-237). All messages
are constants, and the last one is set here, so `State.err` is not used. -/
def jsTrace (A : Allocator) (inp : Str) (m : Mem) (c : Message) : Out (Ptr × Str × Mem × Message) :=
  (alloc A (newRecord .jsTrace) m).bind fun (p, m) =>
  (jsBody A p inp ⟨m, none⟩).bind fun (r, s) =>
  match r with
  | none =>
    (free (8 * inp.length + 40) p false s.mem).bind fun m =>
    .ok (0, [], m, .constant c!"The stacktrace does not match any JavaScript dialect")
  | some t => (storeData p [(((0 <<< 4) ||| 1 : Nat) : Int)] s).bind fun s => .ok (p, t, s.mem, c)

end Satyr.Heap
