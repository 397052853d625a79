import Verif.Json.Model
import Verif.CStr.Cmp
/-!
# Model of the JSON form of Python, Ruby, JavaScript and Java stack traces
-/
namespace Satyr.Json
open Satyr.CStr Satyr.Frames

/-- `if (p) append(...)` for a number that is left out if it is 0. -/
def nonzeroMember (name : Str) (n : Nat) : Str := if n ≠ 0 then numMember name n else []

/-- Reading a name that is stored under one of two keys (for instance lib/python_frame.c:415-438): whether it was found under
the second key, and the name. -/
def readSpecial (j : Value) (plain special : Str) : Option (Bool × Option Str) :=
  match get j plain with
  | some (.str s) => some (false, some s)
  | some _ => none
  | none =>
    match get j special with
    | some (.str s) => some (true, some s)
    | some _ => none
    | none => some (false, none)

/-- `if (frames) append(...)` and the loop over the frames. -/
def framesMember (name : Str) (texts : List Str) : Str := if texts ≠ [] then name ++ arrayText texts else []

/-- `if (len > 0) str[0] = '{'; else append_c('{'); append_c('}')`. -/
def finishSafely (body : Str) : Str := (if body ≠ [] then '{' :: body.drop 1 else c!"{") ++ c!"}"

namespace Python

/-- The members written by `sr_python_frame_to_json` (lib/python_frame.c:360-399). -/
def frameBody (f : PythonFrame) : Str :=
  strMember (if f.specialFile then c!",   \"special_file\": " else c!",   \"file_name\": ") f.fileName ++
  (nonzeroMember c!",   \"file_line\": " f.fileLine ++
  (strMember (if f.specialFunction then c!",   \"special_function\": " else c!",   \"function_name\": ") f.functionName ++
  strMember c!",   \"line_contents\": " f.lineContents))

/-- `sr_python_frame_to_json` (lib/python_frame.c:355-403). -/
def frameToJson (f : PythonFrame) : Str := finishObject (frameBody f)

/-- `sr_python_frame_from_json` (lib/python_frame.c:405-478). -/
def frameFromJson (j : Value) : Option PythonFrame :=
  if isObject j = false then none else
  (readSpecial j c!"file_name" c!"special_file").bind fun file =>
  (readSpecial j c!"function_name" c!"special_function").bind fun function =>
  (readStr j c!"line_contents" none).bind fun lineContents =>
  (readU32 j c!"file_line" 0).bind fun fileLine =>
  some { specialFile := file.1, fileName := file.2, fileLine, specialFunction := function.1, functionName := function.2,
         lineContents }

/-- The members written by `sr_python_stacktrace_to_json` (lib/python_stacktrace.c:238-269). -/
def traceBody (t : PythonTrace) : Str :=
  strMember c!",   \"exception_name\": " t.exceptionName ++
  framesMember c!",   \"stacktrace\":\n" (t.frames.map frameToJson)

/-- `sr_python_stacktrace_to_json` (lib/python_stacktrace.c:233-278). -/
def toJson (t : PythonTrace) : Str := finishSafely (traceBody t)

/-- `sr_python_stacktrace_from_json` (lib/python_stacktrace.c:280-323). -/
def fromJson (j : Value) : Option PythonTrace :=
  if isObject j = false then none else
  (readStr j c!"exception_name" none).bind fun exceptionName =>
  (readArray j c!"stacktrace" frameFromJson).bind fun frames =>
  some { exceptionName, frames }

end Python

namespace Ruby

/-- The members written by `sr_ruby_frame_to_json` (lib/ruby_frame.c:348-390). -/
def frameBody (f : RubyFrame) : Str :=
  strMember c!",   \"file_name\": " f.fileName ++
  (nonzeroMember c!",   \"file_line\": " f.fileLine ++
  (strMember (if f.specialFunction then c!",   \"special_function\": " else c!",   \"function_name\": ") f.functionName ++
  (nonzeroMember c!",   \"block_level\": " f.blockLevel ++
  nonzeroMember c!",   \"rescue_level\": " f.rescueLevel)))

/-- `sr_ruby_frame_to_json` (lib/ruby_frame.c:343-396). -/
def frameToJson (f : RubyFrame) : Str := finishObject (frameBody f)

/-- `sr_ruby_frame_from_json` (lib/ruby_frame.c:398-459). -/
def frameFromJson (j : Value) : Option RubyFrame :=
  if isObject j = false then none else
  (readStr j c!"file_name" none).bind fun fileName =>
  (readSpecial j c!"function_name" c!"special_function").bind fun function =>
  (readU32 j c!"file_line" 0).bind fun fileLine =>
  (readU32 j c!"block_level" 0).bind fun blockLevel =>
  (readU32 j c!"rescue_level" 0).bind fun rescueLevel =>
  some { fileName, fileLine, specialFunction := function.1, functionName := function.2, blockLevel, rescueLevel }

/-- The members written by `sr_ruby_stacktrace_to_json` (lib/ruby_stacktrace.c:277-308). -/
def traceBody (t : RubyTrace) : Str :=
  strMember c!",   \"exception_name\": " t.exceptionName ++
  framesMember c!",   \"stacktrace\":\n" (t.frames.map frameToJson)

/-- `sr_ruby_stacktrace_to_json` (lib/ruby_stacktrace.c:272-317). -/
def toJson (t : RubyTrace) : Str := finishSafely (traceBody t)

/-- `sr_ruby_stacktrace_from_json` (lib/ruby_stacktrace.c:319-362). -/
def fromJson (j : Value) : Option RubyTrace :=
  if isObject j = false then none else
  (readStr j c!"exception_name" none).bind fun exceptionName =>
  (readArray j c!"stacktrace" frameFromJson).bind fun frames =>
  some { exceptionName, frames }

end Ruby

namespace Js

/-- The members written by `sr_js_frame_to_json` (lib/js_frame.c:427-457). -/
def frameBody (f : JsFrame) : Str :=
  strMember c!",   \"file_name\": " f.fileName ++
  (nonzeroMember c!",   \"file_line\": " f.fileLine ++
  (nonzeroMember c!",   \"line_column\": " f.lineColumn ++
  strMember c!",   \"function_name\": " f.functionName))

/-- `sr_js_frame_to_json` (lib/js_frame.c:422-462). -/
def frameToJson (f : JsFrame) : Str := finishObject (frameBody f)

/-- `sr_js_frame_from_json` (lib/js_frame.c:373-420). -/
def frameFromJson (j : Value) : Option JsFrame :=
  if isObject j = false then none else
  (readStr j c!"file_name" none).bind fun fileName =>
  (readStr j c!"function_name" none).bind fun functionName =>
  (readU32 j c!"file_line" 0).bind fun fileLine =>
  (readU32 j c!"line_column" 0).bind fun lineColumn =>
  some { fileName, fileLine, lineColumn, functionName }

/-- `_sr_js_platform_assemble` (include/js/platform.h:91). -/
def assemble (runtime engine : Nat) : Nat := (runtime <<< 4) ||| engine

/-- `sr_js_engine_to_string` (lib/js_platform.c:134-140) on the engine of a platform: the only engine is V8, with number 1. -/
def engineName (engine : Nat) : Option Str := if engine = 1 then some c!"V8" else none

/-- `sr_js_runtime_to_string` (lib/js_platform.c:153-159): the only runtime is Node.js, with number 1. -/
def runtimeName (runtime : Nat) : Option Str := if runtime = 1 then some c!"Node.js" else none

/-- `sr_js_engine_from_string` (lib/js_platform.c:142-151). -/
def engineOf (s : Str) : Nat := if strcmp s c!"V8" = 0 then 1 else 0

/-- `sr_js_runtime_from_string` (lib/js_platform.c:161-170). -/
def runtimeOf (s : Str) : Nat := if strcmp s c!"Node.js" = 0 then 1 else 0

/-- `sr_js_platform_to_json` (lib/js_platform.c:172-189). -/
def platformToJson (platform : Nat) : Str :=
  c!"{    \"engine\": \"" ++ ((engineName (platform &&& 0xF)).getD c!"<unknown>" ++ (c!"\"\n,    \"runtime\": \"" ++
  ((runtimeName (platform >>> 4)).getD c!"<unknown>" ++ c!"\"\n}\n")))

/-- The engine or runtime of a document (lib/js_platform.c:199-214 and 216-231): `none` is a failure, with an error message. -/
def readPart (j : Value) (key : Str) (of : Str → Nat) : Option Nat :=
  (readStr j key none).bind fun o =>
  o.bind fun s =>
  if strcmp s c!"<unknown>" = 0 then some 0
  else if of s = 0 then none else some (of s)

/-- `sr_js_platform_from_json` (lib/js_platform.c:191-240): `none` if an error message is set. `sr_js_platform_init`, which
takes runtime and engine, is called with engine and runtime. -/
def platformFromJson (j : Value) : Option Nat :=
  (readPart j c!"engine" engineOf).bind fun engine =>
  (readPart j c!"runtime" runtimeOf).bind fun runtime =>
  some (assemble engine runtime)

/-- The members written by `sr_js_stacktrace_to_json` (lib/js_stacktrace.c:244-286). -/
def traceBody (t : JsTrace) : Str :=
  strMember c!",   \"exception_name\": " t.exceptionName ++
  (framesMember c!",   \"stacktrace\":\n" (t.frames.map frameToJson) ++
  (if t.platform ≠ 0 then c!",   \"platform\":\n        " ++ indentExceptFirst 8 (platformToJson t.platform) else []))

/-- `sr_js_stacktrace_to_json` (lib/js_stacktrace.c:239-295). -/
def toJson (t : JsTrace) : Str := finishSafely (traceBody t)

/-- The platform of a document (lib/js_stacktrace.c:335-343); `error_message` points to NULL before. -/
def readPlatform (j : Value) : Option Nat :=
  match get j c!"platform" with
  | none => some 0
  | some p => platformFromJson p

/-- `sr_js_stacktrace_from_json` (lib/js_stacktrace.c:297-350). -/
def fromJson (j : Value) : Option JsTrace :=
  if isObject j = false then none else
  (readStr j c!"exception_name" none).bind fun exceptionName =>
  (readArray j c!"stacktrace" frameFromJson).bind fun frames =>
  (readPlatform j).bind fun platform =>
  some { exceptionName, frames, platform }

end Js

namespace Java

/-- The members written by `sr_java_frame_to_json` (lib/java_frame.c:570-615). -/
def frameBody (f : JavaFrame) : Str :=
  strMember c!",   \"name\": " f.name ++
  (strMember c!",   \"file_name\": " f.fileName ++
  ((if f.fileName ≠ none then numMember c!",   \"file_line\": " f.fileLine else []) ++
  (strMember c!",   \"class_path\": " f.classPath ++
  ((c!",   \"is_native\": " ++ ((if f.isNative then c!"true" else c!"false") ++ c!"\n")) ++
  ((c!",   \"is_exception\": " ++ ((if f.isException then c!"true" else c!"false") ++ c!"\n")) ++
  strMember c!",   \"message\": " f.message)))))

/-- `sr_java_frame_to_json` (lib/java_frame.c:565-620). -/
def frameToJson (f : JavaFrame) : Str := finishObject (frameBody f)

/-- `sr_java_frame_from_json` (lib/java_frame.c:622-646). -/
def frameFromJson (j : Value) : Option JavaFrame :=
  if isObject j = false then none else
  (readStr j c!"name" none).bind fun name =>
  (readStr j c!"file_name" none).bind fun fileName =>
  (readU32 j c!"file_line" 0).bind fun fileLine =>
  (readStr j c!"class_path" none).bind fun classPath =>
  (readBool j c!"is_native" false).bind fun isNative =>
  (readBool j c!"is_exception" false).bind fun isException =>
  (readStr j c!"message" none).bind fun message =>
  some { name, fileName, fileLine, classPath, isNative, isException, message }

/-- The members written by `sr_java_thread_to_json` (lib/java_thread.c:370-400). -/
def threadBody (t : JavaThread) : Str :=
  strMember c!",   \"name\": " t.name ++ framesMember c!",   \"frames\":\n" (t.frames.map frameToJson)

/-- `sr_java_thread_to_json` (lib/java_thread.c:365-408). -/
def threadToJson (t : JavaThread) : Str := finishSafely (threadBody t)

/-- `sr_java_thread_from_json` (lib/java_thread.c:410-452). -/
def threadFromJson (j : Value) : Option JavaThread :=
  if isObject j = false then none else
  (readStr j c!"name" none).bind fun name =>
  (readArray j c!"frames" frameFromJson).bind fun frames =>
  some { name, frames }

/-- `sr_java_stacktrace_to_json` (lib/java_stacktrace.c:161-193). -/
def toJson (t : JavaTrace) : Str :=
  c!"{   \"threads\":" ++
  ((if t.threads ≠ [] then c!"\n" else c!" [") ++ (arrayText (t.threads.map threadToJson) ++ c!"}"))

/-- `sr_java_stacktrace_from_json` (lib/java_stacktrace.c:195-233). -/
def fromJson (j : Value) : Option JavaTrace :=
  if isObject j = false then none else
  (readArray j c!"threads" threadFromJson).bind fun threads =>
  some { threads }

end Java

end Satyr.Json
