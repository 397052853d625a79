import Verif.Gdb.LocModel
import Verif.Text.JavaLocModel
/-!
# The locations of the unit tests, computed by the model

Inputs and expected locations are those of tests/gdb_frame.c, tests/gdb_thread.c and tests/java_frame.c, which the C functions pass. The
examples do not prove anything for all inputs; they are evidence that the model is a model of the code. The locations of tests/js_frame.c
are in `Verif.Conformance.Script`.
-/
namespace Satyr.Conformance.Loc
open Satyr.CStr Satyr.Frames

set_option maxRecDepth 20000

/-! ## tests/gdb_frame.c:597-665 -/

/-- The location after a frame, and the rest. -/
def frameEnd (r : Out ((Loc × Str) ⊕ ((GdbFrame × Str) × Loc))) : Option (Loc × Str) :=
  match r with
  | .ok (.inr ((_, s), l)) => some (l, s)
  | _ => none

def gdb1 : Str := c!"#1  0x000000322160e7fd in fsync () at ../sysdeps/unix/syscall-template.S:82\nNo locals."
def gdb2 : Str := c!"#2  0x003f4f3f in IA__g_main_loop_run (loop=0x90e2c50) at gmain.c:2799\n        self = 0x8b80038\n  __PRETTY_FUNCTION__ = \"IA__g_main_loop_run\"\n"

example : frameEnd (Gdb.parseFrameL gdb1 Loc.init) = some (⟨2, 10⟩, []) := by decide +kernel
example : frameEnd (Gdb.parseFrameL (gdb1 ++ '\n' :: gdb2) Loc.init) = some (⟨3, 0⟩, gdb2) := by decide +kernel

/-! ## tests/gdb_thread.c:257-312 -/

/-- The location of a failure, if there is one and it has a message. -/
def failure {T : Type} (r : Out ((Loc × Str) ⊕ T)) : Option Loc :=
  match r with
  | .ok (.inl (l, _ :: _)) => some l
  | _ => none

example : failure (Gdb.parseThreadL c!"Thraed 3 (Thread 11917):\n" Loc.init) = some ⟨1, 0⟩ := by decide +kernel
example : failure (Gdb.parseThreadL c!"Thread3 (Thread 11917):\n" Loc.init) = some ⟨1, 6⟩ := by decide +kernel
example : failure (Gdb.parseThreadL c!"Thread  a (Thread 11917):\n" Loc.init) = some ⟨1, 8⟩ := by decide +kernel
example : failure (Gdb.parseThreadL c!"Thread 8(Thread 11917):\n" Loc.init) = some ⟨1, 8⟩ := by decide +kernel
example : failure (Gdb.parseThreadL c!"Thread 8 (11917):\n" Loc.init) = some ⟨1, 9⟩ := by decide +kernel
example : failure (Gdb.parseThreadL c!"Thread 8 (Thread ffff):\n" Loc.init) = some ⟨1, 17⟩ := by decide +kernel
example : failure (Gdb.parseThreadL c!"Thread 8 (Thread 1)\n" Loc.init) = some ⟨1, 18⟩ := by decide +kernel
example : failure (Gdb.parseThreadL c!"Thread 3 (Thread 11917):\n\n" Loc.init) = some ⟨2, 0⟩ := by decide +kernel

/-! ## tests/java_frame.c:304-564 -/

/-- The location after a frame whose text is read to the end. -/
def javaEnd (s : Str) : Option (JavaFrame × Loc) :=
  match Text.Java.parseFrameL s Loc.init with
  | .ok (.inr (f, [], l)) => some (f, l)
  | _ => none

def duke : JavaFrame := { name := some c!"com.redhat.abrt.duke.nuke", fileName := some c!"duke.java", fileLine := 666 }

example : javaEnd c!"    at com.redhat.abrt.duke.nuke(duke.java:666)" = some (duke, ⟨1, 46⟩) := by decide +kernel
example : javaEnd c!"    at com.redhat.abrt.duke.nuke(duke.java:666) [file:/usr/lib/java/foo.class]" =
    some ({ duke with classPath := some c!"/usr/lib/java/foo.class" }, ⟨1, 77⟩) := by decide +kernel
example : javaEnd c!"    at com.redhat.abrt.duke.nuke(duke.java:666) [http://localhost/foo.class]" =
    some ({ duke with classPath := some c!"http://localhost/foo.class" }, ⟨1, 75⟩) := by decide +kernel
example : javaEnd c!"    at com.redhat.abrt.duke.nuke(duke.java:666) [jar:file:/usr/lib/java/foo.jar!/foo.class]" =
    some ({ duke with classPath := some c!"/usr/lib/java/foo.jar" }, ⟨1, 90⟩) := by decide +kernel
example : javaEnd c!"    at com.redhat.abrt.duke.nuke(duke.java:666) [jar:http://localhost/foo.jar!/foo.class]" =
    some ({ duke with classPath := some c!"http://localhost/foo.jar" }, ⟨1, 88⟩) := by decide +kernel
example : javaEnd c!"    at com.redhat.abrt.duke.nuke(duke.java:666) [unknown]" = some (duke, ⟨1, 56⟩) := by decide +kernel
example : javaEnd c!"    at com.redhat.abrt.duke.nuke(Unknown Source:666)\n" = some ({ duke with fileName := none }, ⟨2, 0⟩) := by decide +kernel
example : javaEnd c!"    at (duke.java:666)\n" = some ({ duke with name := none }, ⟨2, 0⟩) := by decide +kernel
example : javaEnd c!"    at com.redhat.abrt.duke.nuke(duke.java)\n" = some ({ duke with fileLine := 0 }, ⟨2, 0⟩) := by decide +kernel
example : javaEnd c!"    at com.redhat.abrt.duke.nuke(duke.java:-1) [file:/usr/lib/java/foo.class]\n" =
    some ({ duke with fileLine := 0, classPath := some c!"/usr/lib/java/foo.class" }, ⟨2, 0⟩) := by decide +kernel
example : javaEnd c!"    at com.redhat.abrt.duke.nuke(duke.java:-1) [file:/home/user/lib/java/foo.class]\n" =
    some ({ duke with fileLine := 0, classPath := some c!"/home/anonymized/lib/java/foo.class" }, ⟨2, 0⟩) := by decide +kernel
example : javaEnd c!"    at com.redhat.abrt.duke.nuke(Native Method)\n" =
    some ({ name := some c!"com.redhat.abrt.duke.nuke", isNative := true }, ⟨2, 0⟩) := by decide +kernel
example : javaEnd c!"  at (Unknown Source)\n" = some ({}, ⟨2, 0⟩) := by decide +kernel
example : Text.Java.parseFrameL c!" fasdfd" Loc.init = .ok (.inl (⟨1, 0⟩, c!"Frame expected")) := by decide +kernel

/-! ## tests/java_frame.c:604-820: the name and message of an exception -/

def javaHead (s : Str) : Option (Loc × Str) :=
  match Text.Java.exceptionHeadL s Loc.init with
  | .ok (.inr (_, s, l)) => some (l, s)
  | _ => none

example : javaHead c!"com.sun.java.NullPointer: Null Pointer Exception" = some (⟨1, 48⟩, []) := by decide +kernel
example : javaHead c!"com.sun.java.NullPointer: " = some (⟨1, 26⟩, []) := by decide +kernel
example : javaHead c!"com.sun.java.NullPointer  " = some (⟨1, 26⟩, []) := by decide +kernel

example : javaHead c!"com.sun.java.NullPointer: Null Pointer Exception\n\tat com.redhat.abrt.duke.nuke(duke.java:666)" =
      some (⟨2, 0⟩, c!"\tat com.redhat.abrt.duke.nuke(duke.java:666)") ∧
    Text.Java.parseFrameL c!"\tat com.redhat.abrt.duke.nuke(duke.java:666)" ⟨2, 0⟩ = .ok (.inr (duke, [], ⟨2, 43⟩)) := by decide +kernel
example : Text.Java.parseExceptionL 100 c!": Null Pointer Exception" Loc.init = .ok (.inl (⟨1, 0⟩, c!"Expected exception name")) := by decide +kernel
example : Text.Java.parseExceptionL 100 [] Loc.init = .ok (.inl (⟨1, 0⟩, c!"Expected exception name")) := by decide +kernel

end Satyr.Conformance.Loc
