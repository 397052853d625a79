import Verif.Json.Model
/-!
# Model of the JSON form of core stack traces (lib/core_frame.c, lib/core_thread.c, lib/core_stacktrace.c)
-/
namespace Satyr.Json.Core
open Satyr.CStr Satyr.Frames Satyr.Normalize

/-- `ULONG_MAX`, which stands for an unknown address or offset. -/
def ulongMax : Nat := 2 ^ 64 - 1

/-- `sr_core_frame_init` (lib/core_frame.c:67-79). -/
def newFrame : CoreFrame := { address := ulongMax, buildIdOffset := ulongMax, fingerprintHashed := true }

/-- The members written by `sr_core_frame_to_json` (lib/core_frame.c:273-318). -/
def frameBody (f : CoreFrame) : Str :=
  (if f.address ≠ ulongMax then numMember c!",   \"address\": " f.address else []) ++
  (strMember c!",   \"build_id\": " f.buildId ++
  ((if f.buildIdOffset ≠ ulongMax then numMember c!",   \"build_id_offset\": " f.buildIdOffset else []) ++
  (strMember c!",   \"function_name\": " f.functionName ++
  (strMember c!",   \"file_name\": " f.fileName ++
  (strMember c!",   \"fingerprint\": " f.fingerprint ++
  (if f.fingerprint ≠ none ∧ f.fingerprintHashed = false then c!",   \"fingerprint_hashed\": false\n" else []))))))

/-- `sr_core_frame_to_json` (lib/core_frame.c:269-326). -/
def frameToJson (f : CoreFrame) : Str :=
  (if frameBody f ≠ [] then '{' :: (frameBody f).drop 1 else c!"{") ++ c!"}"

/-- `sr_core_frame_from_json` (lib/core_frame.c:242-267). -/
def frameFromJson (j : Value) : Option CoreFrame :=
  if isObject j = false then none else
  (readU64 j c!"address" newFrame.address).bind fun address =>
  (readStr j c!"build_id" newFrame.buildId).bind fun buildId =>
  (readU64 j c!"build_id_offset" newFrame.buildIdOffset).bind fun buildIdOffset =>
  (readStr j c!"function_name" newFrame.functionName).bind fun functionName =>
  (readStr j c!"file_name" newFrame.fileName).bind fun fileName =>
  (readStr j c!"fingerprint" newFrame.fingerprint).bind fun fingerprint =>
  (readBool j c!"fingerprint_hashed" newFrame.fingerprintHashed).bind fun fingerprintHashed =>
  some { address, buildId, buildIdOffset, functionName, fileName, fingerprint, fingerprintHashed }

/-- `sr_core_thread_to_json` (lib/core_thread.c:224-264). -/
def threadToJson (t : CoreThread) (isCrashThread : Bool) : Str :=
  if t.frames ≠ [] then
    (if isCrashThread then c!"{   \"crash_thread\": true\n," else c!"{") ++
    (c!"   \"frames\":\n" ++ (arrayText (t.frames.map frameToJson) ++ c!"}"))
  else c!"{}"

/-- `sr_core_thread_from_json` (lib/core_thread.c:183-222). The member `id` of the new thread is not initialised; it is 0
here. -/
def threadFromJson (j : Value) : Option CoreThread :=
  if isObject j = false then none else
  (readArray j c!"frames" frameFromJson).bind fun frames =>
  some { id := 0, frames }

/-- Whether the writer marks the thread at position `i` (lib/core_stacktrace.c:281-284). -/
def marked (crash : Option Nat) (i : Nat) : Bool := crash == some i || (crash == none && i == 0)

/-- The threads written with their marks. -/
def threadTexts (crash : Option Nat) (l : List CoreThread) : List Str :=
  l.zipIdx.map fun p => threadToJson p.1 (marked crash p.2)

/-- `sr_core_stacktrace_to_json` (lib/core_stacktrace.c:253-300). -/
def toJson (t : CoreTrace) : Str :=
  numMember c!"{   \"signal\": " t.signal ++
  (strMember c!",   \"executable\": " t.executable ++
  ((if t.onlyCrashThread then c!",   \"only_crash_thread\": true\n" else []) ++
  (c!",   \"stacktrace\":\n" ++
  (arrayText (threadTexts t.crashThread t.threads) ++ c!"}"))))

/-- The member `crash_thread` of a thread (lib/core_stacktrace.c:203-213). -/
def readMark (j : Value) : Option Bool :=
  match get j c!"crash_thread" with
  | none => some false
  | some (.bool b) => some b
  | some _ => none

/-- A thread with its mark (lib/core_stacktrace.c:198-213). -/
def markedFromJson (j : Value) : Option (CoreThread × Bool) :=
  (threadFromJson j).bind fun t => (readMark j).bind fun b => some (t, b)

/-- The assignments to `crash_thread` (lib/core_stacktrace.c:211-212): the position of the last marked thread. -/
def lastMarked : List Bool → Option Nat
  | [] => none
  | b :: l =>
    match lastMarked l with
    | some k => some (k + 1)
    | none => if b then some 0 else none

/-- `sr_core_stacktrace_from_json` (lib/core_stacktrace.c:164-224). -/
def fromJson (j : Value) : Option CoreTrace :=
  if isObject j = false then none else
  (readU16 j c!"signal" 0).bind fun signal =>
  (readStr j c!"executable" none).bind fun executable =>
  (readBool j c!"only_crash_thread" false).bind fun onlyCrashThread =>
  (readArray j c!"stacktrace" markedFromJson).bind fun l =>
  some { signal, executable, onlyCrashThread, threads := l.map Prod.fst, crashThread := lastMarked (l.map Prod.snd) }

end Satyr.Json.Core
