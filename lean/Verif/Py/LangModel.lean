import Verif.Py.ThreadModel
import Verif.Text.PythonModel
import Verif.Text.RubyModel
import Verif.Text.JsModel
import Verif.Short.Model
/-!
# Model of the stack traces of Python, Ruby and JavaScript as Python objects

python/py_python_stacktrace.c, python/py_ruby_stacktrace.c and python/py_js_stacktrace.c, with `to_short_text` of their base class. The
objects and the memory are those of `Verif.Py.ThreadModel`: these stack traces are threads too (python/py_base_stacktrace.c:93).
-/
namespace Satyr.Py.Lang
open Satyr.CStr Satyr.Frames
open Satyr.Py.Base (Exc)
open Satyr.Py.Objects (textArg)
open Satyr.Py.Threads

/-- What the three classes differ in: parser, empty stack trace, printing of the short text, and the name in `str`. -/
structure Class (T F : Type) where
  kind : Kind T F
  empty : T
  parse : Str → Out (Option (T × Str))
  short : T → Int → Out (Option Str)
  label : Str

/-- python/py_python_stacktrace.c:118-185; `sr_python_stacktrace_init` (lib/python_stacktrace.c:90-95). -/
def python : Class PythonTrace PythonFrame where
  kind := ⟨PythonTrace.frames, fun t fs => { t with frames := fs }⟩
  empty := {}
  parse := Text.Python.parse
  short := Short.pythonText
  label := c!"Python"

/-- python/py_ruby_stacktrace.c:113-180; `sr_ruby_stacktrace_init` (lib/ruby_stacktrace.c:89-94). -/
def ruby : Class RubyTrace RubyFrame where
  kind := ⟨RubyTrace.frames, fun t fs => { t with frames := fs }⟩
  empty := {}
  parse := Text.Ruby.parse
  short := Short.rubyText
  label := c!"Ruby"

/-- python/py_js_stacktrace.c:133-200; `sr_js_stacktrace_init` (lib/js_stacktrace.c:91-96). -/
def js : Class JsTrace JsFrame where
  kind := ⟨JsTrace.frames, fun t fs => { t with frames := fs }⟩
  empty := {}
  parse := Text.Js.parseTrace
  short := Short.jsText
  label := c!"JavaScript"

variable {T F : Type}

/-- `sr_py_python_stacktrace_new` (python/py_python_stacktrace.c:118-144), `sr_py_ruby_stacktrace_new`
(python/py_ruby_stacktrace.c:113-139), `sr_py_js_stacktrace_new` (python/py_js_stacktrace.c:133-159). -/
def new (c : Class T F) (args : List Value) (w : World F) : Out (Except Exc (Threads.Obj T × World F)) :=
  match args with
  | [] => .ok (.ok (wrap c.kind c.empty w))
  | [s] =>
    match textArg s with
    | .error e => .ok (.error e)
    | .ok s => do
      let r ← c.parse s
      .ok (made c.kind w r)
  | _ => .ok (.error .type)

/-- `sr_py_python_stacktrace_str` (python/py_python_stacktrace.c:159-170), `sr_py_ruby_stacktrace_str`
(python/py_ruby_stacktrace.c:154-165), `sr_py_js_stacktrace_str` (python/py_js_stacktrace.c:174-185). -/
def str (c : Class T F) (o : Threads.Obj T) : Str := c.label ++ c!" stacktrace with " ++ natDec o.items.length ++ c!" frames"

/-- `sr_py_python_stacktrace_dup` (python/py_python_stacktrace.c:173-185), `sr_py_ruby_stacktrace_dup`
(python/py_ruby_stacktrace.c:168-180), `sr_py_js_stacktrace_dup` (python/py_js_stacktrace.c:188-200). The C copies are equal to the
originals, with frames of their own (`Verif.Heap`). -/
def dup (c : Class T F) (o : Threads.Obj T) (w : World F) : Out (Except Exc (Threads.Obj T × Threads.Obj T × World F)) := Threads.dup c.kind o w

/-- The argument of `to_short_text` (python/py_base_stacktrace.c:262-264), a format `i` that may be missing. -/
def maxArg : List Value → Except Exc Int
  | [] => .ok 0
  | [v] => smallArg v
  | _ => .error .type

/-- `sr_py_single_stacktrace_to_short_text` (python/py_base_stacktrace.c:259-279): the text and the object afterwards. -/
def toShortText (c : Class T F) (args : List Value) (o : Threads.Obj T) (w : World F) : Out (Except Exc (Str × Threads.Obj T)) :=
  match maxArg args with
  | .error e => .ok (.error e)
  | .ok n => do
    match ← method c.kind (fun t => c.short t n) o w with
    | .error e => .ok (.error e)
    | .ok (x, o) => do
      match ← x with
      | none => .ok (.error .system)
      | some s => .ok (.ok (s, o))

end Satyr.Py.Lang
