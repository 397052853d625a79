import Verif.Frames.Types
/-!
# Threads and stack traces as values

A linked list of threads or frames is a list (allocation identity only matters for the removal operations, which are in
`Verif.Threads`). The members `type` and `next` are left out.
-/
namespace Satyr.Frames
open Satyr.CStr Satyr.Normalize

/-- `struct sr_gdb_sharedlib` (include/gdb/sharedlib.h:45-52). -/
structure Sharedlib where
  lo : Nat := 0
  hi : Nat := 0
  symbols : Int := 0
  soname : Option Str := none
  deriving Repr, DecidableEq

/-- `struct sr_gdb_thread` (include/gdb/thread.h:46-68). -/
structure GdbThread where
  number : Nat := 0
  tid : Nat := 0
  frames : List GdbFrame := []
  deriving DecidableEq

/-- `struct sr_gdb_stacktrace` (include/gdb/stacktrace.h:50-80). -/
structure GdbTrace where
  threads : List GdbThread := []
  crash : Option GdbFrame := none
  libs : List Sharedlib := []
  crashTid : Nat := 0
  deriving DecidableEq

/-- `struct sr_core_thread` (include/core/thread.h:43-60). -/
structure CoreThread where
  id : Int := 0
  frames : List CoreFrame := []
  deriving DecidableEq

/-- `struct sr_core_stacktrace` (include/core/stacktrace.h:43-63). The pointer to the crash thread is the position of that
thread in the list. -/
structure CoreTrace where
  signal : Nat := 0
  executable : Option Str := none
  crashThread : Option Nat := none
  threads : List CoreThread := []
  onlyCrashThread : Bool := false
  deriving DecidableEq

/-- The taint members of `struct sr_koops_stacktrace` (include/koops/stacktrace.h:54-71). -/
structure Taints where
  moduleProprietary : Bool := false
  moduleOutOfTree : Bool := false
  forcedModule : Bool := false
  forcedRemoval : Bool := false
  smpUnsafe : Bool := false
  mce : Bool := false
  pageRelease : Bool := false
  userspace : Bool := false
  diedRecently : Bool := false
  acpiOverridden : Bool := false
  warning : Bool := false
  stagingDriver : Bool := false
  firmwareWorkaround : Bool := false
  unsignedModule : Bool := false
  softLockup : Bool := false
  livePatched : Bool := false
  deriving Repr, DecidableEq

/-- `struct sr_koops_stacktrace` (include/koops/stacktrace.h:41-95). -/
structure KoopsTrace where
  version : Option Str := none
  taint : Taints := {}
  modules : Option (List Str) := none
  rawOops : Option Str := none
  frames : List KoopsFrame := []
  reason : Option Str := none
  deriving Repr, DecidableEq

/-- `struct sr_python_stacktrace` (include/python/stacktrace.h:40-48). -/
structure PythonTrace where
  exceptionName : Option Str := none
  frames : List PythonFrame := []
  deriving Repr, DecidableEq

/-- `struct sr_java_thread` (include/java/thread.h:47-66). -/
structure JavaThread where
  name : Option Str := none
  frames : List JavaFrame := []
  deriving Repr, DecidableEq

/-- `struct sr_java_stacktrace` (include/java/stacktrace.h:40-48). -/
structure JavaTrace where
  threads : List JavaThread := []
  deriving Repr, DecidableEq

/-- `struct sr_ruby_stacktrace` (include/ruby/stacktrace.h:40-47). -/
structure RubyTrace where
  exceptionName : Option Str := none
  frames : List RubyFrame := []
  deriving Repr, DecidableEq

/-- `struct sr_js_stacktrace` (include/js/stacktrace.h:41-50). -/
structure JsTrace where
  exceptionName : Option Str := none
  frames : List JsFrame := []
  platform : Nat := 0
  deriving Repr, DecidableEq

end Satyr.Frames
