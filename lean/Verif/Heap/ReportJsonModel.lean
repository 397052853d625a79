import Verif.Heap.JsonModel
import Verif.Report.Model
/-!
# Model of memory: reading operating systems and reports from JSON
-/
namespace Satyr.Heap
open Satyr.CStr
open Satyr.Json
open Satyr.Report (ReportType typeFromString entries)

/-- No structures are read by the steps used here. -/
def noItems : Kind → Value → State → Out (Ptr × State) := fun _ _ _ => .ub

/-- `a && b`, and `if (!a) goto fail; b`. -/
def andThen (o : Out (Bool × State)) (f : State → Out (Bool × State)) : Out (Bool × State) :=
  o.bind fun (ok, s) => if ok then f s else .ok (false, s)

/-- `sr_operating_system_from_json` (lib/operating_system.c:128-154). The new structure has NULL in all members that are pointers
(`sr_operating_system_init`, called by `sr_operating_system_new`). -/
def readSystem (A : Allocator) (j : Value) (s : State) : Out (Ptr × State) :=
  if isObject j = false then (setError A (typeError c!"operating system" c!"object") s).bind fun s => .ok (0, s)
  else
    (alloc A (.record { kind := .system, texts := List.replicate (texts .system).length 0 }) s.mem).bind fun (p, m) =>
    let step := fun t s => runStep A noItems (room j) p .system j s t
    (andThen (step (.text c!"name" .name) ⟨m, s.err⟩) fun s =>
      andThen (step (.text c!"version" .version) s) fun s =>
      andThen (step (.text c!"architecture" .architecture) s) fun s => step (u64 c!"uptime" 0) s).bind fun (ok, s) =>
    (step (.text c!"desktop" .desktop) s).bind fun (_, s) =>
    (step (.text c!"variant" .variant) s).bind fun (_, s) =>
    if ok then .ok (p, s) else (free (room j) p false s.mem).bind fun m => .ok (0, ⟨m, s.err⟩)

/-- Changing the structure at `p`. -/
def change (p : Ptr) (f : Record → Record) (s : State) : Out (Bool × State) :=
  (readRecord s.mem p).bind fun r => (writeRecord s.mem p (f r)).bind fun m => .ok (true, ⟨m, s.err⟩)

/-- The reporter (lib/report.c:327-339). The texts replace pointers to constants. -/
def readReporter (A : Allocator) (n : Nat) (p : Ptr) (j : Value) (s : State) : Out (Bool × State) :=
  match get j c!"reporter" with
  | none => .ok (true, s)
  | some v =>
    if isObject v = false then refuse A (typeError c!"reporter" c!"object") s
    else
      andThen (runStep A noItems n p .report v s (.text c!"name" .reporterName)) fun s =>
      runStep A noItems n p .report v s (.text c!"version" .reporterVersion)

/-- The operating system (lib/report.c:341-349). (If it is NULL the assignment, of NULL to a member that is NULL, is left out.) -/
def readOs (A : Allocator) (p : Ptr) (j : Value) (s : State) : Out (Bool × State) :=
  match get j c!"os" with
  | none => .ok (true, s)
  | some v => (readSystem A v s).bind fun (q, s) => if q = 0 then .ok (false, s) else change p (fun r => { r with a := q }) s

/-- The packages (lib/report.c:351-359). -/
def readPackagesMember (A : Allocator) (p : Ptr) (j : Value) (s : State) : Out (Bool × State) :=
  match get j c!"packages" with
  | none => .ok (true, s)
  | some v =>
    (readPackageList A v s).bind fun (o, s) =>
    match o with
    | none => .ok (false, s)
    | some q => change p (fun r => { r with b := q }) s

/-- The user (lib/report.c:378-390), which is looked for in the whole document. -/
def user : Step := .data fun j =>
  match get j c!"user" with
  | none => .ok [0, 1]
  | some u =>
    if isObject u = false then .error (typeError c!"user" c!"object")
    else
      match readBool u c!"root" false with
      | none => .error (typeError c!"root" c!"boolean")
      | some a =>
        match readBool u c!"local" true with
        | none => .error (typeError c!"local" c!"boolean")
        | some b => .ok [if a then 1 else 0, if b then 1 else 0]

/-- The kind of stack trace (lib/report.c:397-409 and lib/generic_stacktrace.c:102-106). -/
def traceKind : ReportType → Option Kind
  | .core => some .coreTrace
  | .python => some .pythonTrace
  | .kerneloops => some .koopsTrace
  | .java => some .javaTrace
  | .ruby => some .rubyTrace
  | _ => none

/-- The stack trace (lib/report.c:396-409); it is NULL if it cannot be read. -/
def readTrace (A : Allocator) (p : Ptr) (v : Value) (type : ReportType) (s : State) : Out (Bool × State) :=
  match traceKind type with
  | none => .ok (true, s)
  | some k => (read A 3 k v s).bind fun (q, s) => change p (fun r => { r with c := q }) s

/-- The problem after its type (lib/report.c:371-409). -/
def problemRest (A : Allocator) (n : Nat) (p : Ptr) (j v : Value) (type : ReportType) (s : State) : Out (Bool × State) :=
  andThen (runStep A noItems n p .report v s (.text c!"component" .componentName)) fun s =>
  andThen (runStep A noItems n p .report v s (.data fun _ => .ok [type.code])) fun s =>
  andThen (runStep A noItems n p .report j s user) fun s =>
  andThen (runStep A noItems n p .report v s (u32 c!"serial" 0)) fun s => readTrace A p v type s

/-- The problem (lib/report.c:361-411). The text of the type is freed when its block is left. -/
def readProblem (A : Allocator) (n : Nat) (p : Ptr) (j : Value) (s : State) : Out (Bool × State) :=
  match get j c!"problem" with
  | none => (storeData p [0, 0, 1, 0] s).bind fun s => .ok (true, s)
  | some v =>
    if isObject v = false then refuse A (typeError c!"problem" c!"object") s
    else
      match get v c!"type" with
      | none => problemRest A n p j v (.ofCode (typeFromString none)) s
      | some (.str t) =>
        (alloc A (.text t) s.mem).bind fun (q, m) =>
        (problemRest A n p j v (.ofCode (typeFromString (some t))) ⟨m, s.err⟩).bind fun (ok, s) =>
        (freeBlock s.mem q).bind fun m => .ok (ok, ⟨m, s.err⟩)
      | some _ => refuse A (typeError c!"type" c!"string") s

/-- `sr_report_add_auth` (lib/report.c:97-109). (There the entry is allocated before its texts.) -/
def addAuth (A : Allocator) (p : Ptr) (key value : Str) (s : State) : Out State :=
  (alloc A (.text key) s.mem).bind fun (q1, m) =>
  (alloc A (.text value) m).bind fun (q2, m) =>
  (readRecord m p).bind fun r =>
  (alloc A (.record { kind := .entry, texts := [q1, q2], next := r.e }) m).bind fun (q, m) =>
  (writeRecord m p { r with e := q }).bind fun m => .ok ⟨m, s.err⟩

/-- The loop over the authentication entries (lib/report.c:422-440), from the last to the first. -/
def authLoop (A : Allocator) (p : Ptr) : List (Str × Value) → State → Out State
  | [], s => .ok s
  | (key, .str value) :: l, s => (addAuth A p key value s).bind fun s => authLoop A p l s
  | (key, _) :: l, s => (setError A (typeError key c!"string") s).bind fun s => authLoop A p l s

/-- The authentication entries (lib/report.c:413-441). -/
def readAuth (A : Allocator) (p : Ptr) (j : Value) (s : State) : Out (Bool × State) :=
  match get j c!"auth" with
  | none => .ok (true, s)
  | some (.obj l) => (authLoop A p (entries l).reverse s).bind fun s => .ok (true, s)
  | some _ => refuse A (typeError c!"auth" c!"object") s

/-- `sr_report_from_json` (lib/report.c:314-448). -/
def readReport (A : Allocator) (j : Value) (s : State) : Out (Ptr × State) :=
  if isObject j = false then (setError A (typeError c!"root value" c!"object") s).bind fun s => .ok (0, s)
  else
    (alloc A (.record { kind := .report, texts := List.replicate (texts .report).length 0 }) s.mem).bind fun (p, m) =>
    (andThen (runStep A noItems (room j) p .report j ⟨m, s.err⟩ (u32 c!"ureport_version" 2)) fun s =>
      andThen (readReporter A (room j) p j s) fun s =>
      andThen (readOs A p j s) fun s =>
      andThen (readPackagesMember A p j s) fun s =>
      andThen (readProblem A (room j) p j s) fun s => readAuth A p j s).bind fun (ok, s) =>
    if ok then .ok (p, s) else (free (room j) p false s.mem).bind fun m => .ok (0, ⟨m, s.err⟩)

end Satyr.Heap
