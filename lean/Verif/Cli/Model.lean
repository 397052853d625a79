import Verif.Generic.Model
import Verif.Abrt.Model
/-!
# Model of the program `satyr` (satyr.c)

The program is a function from its arguments to what it writes to standard output and standard error, and its status. The files, the
problem directories, and the parts of the library that are modelled without messages or not at all (unwinding, the clock) are in
`World`.
-/
namespace Satyr.Cli
open Satyr.CStr Satyr.Frames Satyr.Normalize Satyr.Report Satyr.Hash

/-- What the program finds. -/
structure World where
  /-- `basename(argv[0])` (satyr.c:376). -/
  name : Str
  /-- `PACKAGE_VERSION` -/
  version : Str
  /-- `sr_file_to_string` (lib/utils.c:152-204): the text up to the first NUL or the message. -/
  file : Str → Str ⊕ Str
  /-- The problem directory at a path. -/
  dir : Str → Abrt.Dir
  /-- The message if no report can be read from a directory and there is one. -/
  dirMessage : Str → Str
  /-- `errno` while the report is read. -/
  errno : Nat
  qsort : (Rpm.Package → Rpm.Package → Int) → List Rpm.Package → List Rpm.Package
  sha1 : Str → Str
  /-- The message if a text cannot be read as a stack trace of a type. -/
  parseMessage : Int → Str → Str
  /-- `sr_abrt_create_core_stacktrace` (lib/abrt.c:151-157): the message of a failure. -/
  create : Str → Option Str
  /-- `debug_unwind_from_hook` after the numbers have been read (satyr.c:300-347): the message of a failure. -/
  hook : Str → Int → Int → Option Str

/-- What the program has written when it exits, and its status. -/
structure Ran where
  out : Str := []
  err : Str := []
  status : Nat := 0
  deriving DecidableEq, Repr

/-- `short_usage_and_exit` (satyr.c:58-64), after writing a message to standard error. -/
def shortUsage (w : World) (err : Str) : Ran where
  out := c!"Usage: " ++ w.name ++ c!" COMMAND [OPTION...]\n" ++
    c!"Try `" ++ w.name ++ c!" --help' or `" ++ w.name ++ c!" --usage' for more information.\n"
  err := err
  status := 1

/-- A message on standard error and `exit(1)`. -/
def failed (message : Str) : Ran where
  err := message ++ c!"\n"
  status := 1

/-- `help` (satyr.c:45-56). -/
def help (w : World) : Ran where
  out := c!"Usage: " ++ w.name ++ c!" COMMAND [OPTION...]\n" ++
    w.name ++ c!" -- Automatic problem management with anonymous reports\n\n" ++
    c!"The following commands are available:\n" ++
    c!"   abrt-print-report-from-dir   Create report from an ABRT directory\n" ++
    c!"   abrt-report-dir              Create report from an ABRT directory and\n" ++
    c!"                                send it to a server\n" ++
    c!"   abrt-create-core-stacktrace  Create core stacktrace from an ABRT directory\n" ++
    c!"   debug                        Commands for debugging and development support\n"

/-- `usage` (satyr.c:66-74). -/
def usage (w : World) : Ran where
  out := c!"Usage: " ++ w.name ++ c!" --version\n" ++
    c!"Usage: " ++ w.name ++ c!" abrt-print-report-from-dir DIR [OPTION...]\n" ++
    c!"Usage: " ++ w.name ++ c!" abrt-report-dir DIR URL [OPTION...]\n" ++
    c!"Usage: " ++ w.name ++ c!" abrt-create-core-stacktrace DIR [OPTION...]\n" ++
    c!"Usage: " ++ w.name ++ c!" debug COMMAND [OPTION...]\n"

/-- `version` (satyr.c:76-80). -/
def version (w : World) : Ran where
  out := c!"Satyr version " ++ w.version ++ c!"\n"

/-- `abrt_print_report_from_dir` (satyr.c:82-102) with `sr_abrt_print_report_from_dir` (lib/abrt.c:54-69). `error_message` is not
initialized: printing it is undefined if it has not been assigned. -/
def printReport (w : World) : List Str → Out Ran
  | [] => .ok (shortUsage w c!"Missing ABRT problem directory path.\n")
  | d :: _ => do
    match ← Abrt.report w.qsort c!"satyr" w.version w.errno (w.dir d) false with
    | (some r, _) =>
      let json ← Report.toJson r
      .ok { out := json ++ c!"\n" }
    | (none, true) => .ok (failed (w.dirMessage d))
    | (none, false) => .ub

/-- `abrt_report_dir` (satyr.c:104-108). -/
def reportDir : Ran where
  err := c!"Not implemented.\n"

/-- `abrt_create_core_stacktrace` (satyr.c:110-131). -/
def createCore (w : World) : List Str → Ran
  | [] => shortUsage w c!"Missing ABRT problem directory path.\n"
  | d :: _ =>
    match w.create d with
    | none => {}
    | some m => failed m

/-- One round of the loop of `debug_normalize` (satyr.c:156-195): the frame and the rest of the text. The results of
`sr_skip_whitespace` are not used, so it has no effect. -/
def readFrame (s : Str) : GdbFrame × Str :=
  let function := s.takeWhile (· ≠ ' ')
  let s := s.dropWhile (· ≠ ' ')
  let library := s.takeWhile (· ≠ '\n')
  let s := s.dropWhile (· ≠ '\n')
  let source := s.takeWhile (· ≠ '\n')
  ({ functionName := some function, libraryName := some library, sourceFile := some source, sourceLine := 4294967295,
     address := 18446744073709551615 }, (s.dropWhile (· ≠ '\n')).drop 1)

/-- The loop of `debug_normalize` (satyr.c:156-196). -/
def readFrames : Nat → Str → Out (List GdbFrame)
  | 0, _ => .ub
  | n + 1, s =>
    if s = [] then .ok [] else do
      let fs ← readFrames n (readFrame s).2
      .ok ((readFrame s).1 :: fs)

/-- The frames after normalization. -/
def normalized (fs : List GdbFrame) : Out (List GdbFrame) := do
  let r ← normalizeGdb (Crash.nodes fs)
  .ok (r.map Threads.Node.val)

/-- `debug_normalize` (satyr.c:133-205). -/
def debugNormalize (w : World) : List Str → Out Ran
  | [] => .ok (shortUsage w c!"Missing file name.\n")
  | f :: _ =>
    match w.file f with
    | .inr m => .ok (failed m)
    | .inl text => do
      let fs ← readFrames (text.length + 1) text
      let fs ← normalized fs
      .ok { out := Short.gdbThread false { frames := fs } ++ c!"\n" }

/-- `debug_duphash` after the stack trace has been read (satyr.c:241-270). -/
def printDuphash (w : World) (t : Stacktrace) (component : Option Str) : Out Ran := do
  match ← Generic.findCrashThread t with
  | none => .ok (failed c!"Cannot find crash thread")
  | some t =>
    match ← t.duphash w.sha1 3 component { nohash := true } with
    | none => .ok (failed c!"Computing duphash failed")
    | some clear =>
      let out := c!"Cleartext:\n" ++ clear ++ c!"\n"
      match ← t.duphash w.sha1 3 component {} with
      | none => .ok { failed c!"Computing duphash failed" with out := out }
      | some hash => .ok { out := out ++ c!"Hash: " ++ hash ++ c!"\n" }

/-- `debug_duphash` (satyr.c:207-271). -/
def debugDuphash (w : World) : List Str → Out Ran
  | type :: file :: rest =>
    if typeFromString (some type) = 0 then .ok (failed (c!"Invalid report type " ++ type)) else
    match w.file file with
    | .inr m => .ok (failed m)
    | .inl text => do
      match ← Generic.parse (typeFromString (some type)) text with
      | none => .ok (failed (w.parseMessage (typeFromString (some type)) text))
      | some t => printDuphash w t rest.head?
  | _ => .ok (shortUsage w (c!"Usage: " ++ w.name ++ c!" debug duphash TYPE FILE [COMPONENT]\n"))

/-- `debug_unwind_from_hook` (satyr.c:273-347); the numbers wrap around if they are negative and saturate if they are too large. -/
def debugUnwind (w : World) : List Str → Ran
  | [executable, tid, signal] =>
    let t := strtoull 10 tid
    if t.rest ≠ [] then failed c!"Wrong tid" else
    let s := strtoull 10 signal
    if s.rest ≠ [] then failed c!"Wrong signal number" else
    match w.hook executable (wrap32 t.value) (wrap32 s.value) with
    | none => {}
    | some m => failed m
  | _ => failed c!"Wrong number of arguments.\nUsage: satyr debug unwind-from-hook <executable> <tid> <signal>"

/-- `debug` (satyr.c:349-371). -/
def debug (w : World) : List Str → Out Ran
  | [] => .ok (shortUsage w c!"Missing debug command.\n")
  | c :: args =>
    if strcmp c c!"normalize" = 0 then debugNormalize w args
    else if strcmp c c!"duphash" = 0 then debugDuphash w args
    else if strcmp c c!"unwind-from-hook" = 0 then .ok (debugUnwind w args)
    else .ok (shortUsage w c!"Unknown debug subcommand.\n")

/-- `main` (satyr.c:373-403); the list has the arguments after the name of the program. -/
def main (w : World) : List Str → Out Ran
  | [] => .ok (shortUsage w [])
  | c :: args =>
    if strcmp c c!"--help" = 0 then .ok (help w)
    else if strcmp c c!"--usage" = 0 then .ok (usage w)
    else if strcmp c c!"--version" = 0 then .ok (version w)
    else if strcmp c c!"abrt-print-report-from-dir" = 0 then printReport w args
    else if strcmp c c!"abrt-report-dir" = 0 then .ok reportDir
    else if strcmp c c!"abrt-create-core-stacktrace" = 0 then .ok (createCore w args)
    else if strcmp c c!"debug" = 0 then debug w args
    else .ok (shortUsage w c!"Unknown command.\n")

end Satyr.Cli
