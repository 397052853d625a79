import Verif.Py.ObjectsModel
import Verif.Text.KoopsModel
import Verif.Koops.Normalize
import Verif.Generic.Model
/-!
# Model of the Python class Kerneloops (python/py_koops_stacktrace.c)

The attributes `version` and `raw_oops` are in `Verif.Py.Attr`. References are not counted: the frames of a list that is thrown away
stay as they are.
-/
namespace Satyr.Py.Kerneloops
open Satyr.CStr Satyr.Frames
open Satyr.Py.Base (Exc)
open Satyr.Py.Objects (Stored parseArgs textAt)

/-- The object: the C stack trace and the Python list of frames, where `none` is something else than a frame of a kernel oops. -/
structure Obj where
  trace : KoopsTrace
  items : List (Option KoopsFrame)
  deriving DecidableEq

/-- `koops_stacktrace_to_python_obj` (python/py_koops_stacktrace.c:155-172): the list has the frames of the C stack trace
(`frames_to_python_list`, python/py_base_thread.c:158-186). -/
def wrap (t : KoopsTrace) : Obj := { trace := t, items := t.frames.map some }

/-- `sr_py_koops_stacktrace_new` (python/py_koops_stacktrace.c:175-201); the parser never returns NULL. -/
def new (args : List Value) : Out (Except Exc Obj) :=
  if args.length > 1 then .ok (.error .type)
  else
    match parseArgs [false] args with
    | .error e => .ok (.error e)
    | .ok l =>
      match textAt l 0 with
      | none => .ok (.ok (wrap {}))
      | some s => do
        let r ← Text.Koops.parseTrace s
        .ok (.ok (wrap r.1))

/-- `sr_py_koops_stacktrace_get_modules` (python/py_koops_stacktrace.c:106-122). -/
def getModules (o : Obj) : List Str := o.trace.modules.getD []

/-- `PyDict_SetItemString`. -/
def setItem (k : Str) (v : Bool) : List (Str × Bool) → List (Str × Bool)
  | [] => [(k, v)]
  | (k', v') :: d => if k' = k then (k', v) :: d else (k', v') :: setItem k v d

/-- `sr_py_koops_stacktrace_get_taint_flags` (python/py_koops_stacktrace.c:131-146): the dictionary. -/
def getTaintFlags (o : Obj) : List (Str × Bool) := Koops.flags.foldl (fun d f => setItem f.name (f.get o.trace.taint) d) []

/-- `frames_prepare_linked_list` (python/py_base_thread.c:115-156): the C stack trace afterwards; an empty list leaves the old frames. -/
def prepare (o : Obj) : Option KoopsTrace :=
  match o.items.mapM id with
  | none => none
  | some [] => some o.trace
  | some (f :: fs) => some { o.trace with frames := f :: fs }

/-- `sr_py_koops_stacktrace_str` (python/py_koops_stacktrace.c:216-227). -/
def str (o : Obj) : Str := c!"Kerneloops with " ++ natDec o.items.length ++ c!" frames"

/-- `sr_py_koops_stacktrace_dup` (python/py_koops_stacktrace.c:230-242): the copy. The C copy is equal (lib/koops_stacktrace.c:142-163). -/
def dup (o : Obj) : Except Exc Obj :=
  match prepare o with
  | none => .error .type
  | some t => .ok (wrap t)

/-- `sr_py_koops_stacktrace_normalize` (python/py_koops_stacktrace.c:244-267): only the frames of the normalized copy are taken. -/
def normalize (o : Obj) : Out (Except Exc Obj) :=
  match prepare o with
  | none => .ok (.error .type)
  | some t => do
    let fs ← Generic.normalized Koops.normalizeKoops t.frames
    .ok (.ok (wrap { t with frames := fs }))

end Satyr.Py.Kerneloops
