import Verif.Text.JavaModel
import Verif.Frames.ThreadCmp
import Verif.Threads.Model
/-!
# The unit tests of Java stack traces, run on the model

Inputs and expected results are those of tests/java_frame.c, tests/java_thread.c, tests/java_stacktrace.c and tests/java_testcases.c, which
the C functions pass. The locations are in `Verif.Conformance.Locations`. The examples do not prove anything for all inputs; they are evidence that the
model is a model of the code.
-/
namespace Satyr.Conformance.Java
open Satyr.CStr Satyr.Frames Satyr.Text.Java

set_option maxRecDepth 20000

/-! ## tests/java_frame.c -/

/-- The first frame of `test_java_frame_cmp`. -/
def f0 : JavaFrame := { name := some c!"name.space.test1.ctor", fileName := some c!"test1.java", fileLine := 1, classPath := some c!"/usr/share/jar1" }
/-- The first exception of `test_java_frame_cmp`. -/
def e0 : JavaFrame := { name := some c!"com.sun.java.NullPointer", message := some c!"Null pointer exception", isException := true }

-- tests/java_frame.c:7-87
example : javaCmp f0 f0 = 0 ∧ javaCmp { f0 with fileLine := 2 } f0 ≠ 0 ∧ javaCmp { f0 with name := none } f0 ≠ 0 ∧
    javaCmp { f0 with fileName := none } f0 ≠ 0 ∧ javaCmp { f0 with classPath := none } f0 ≠ 0 := by decide +kernel
example : javaCmp e0 e0 = 0 ∧ javaCmp { f0 with classPath := none } e0 ≠ 0 ∧ javaCmp e0 f0 ≠ 0 ∧ javaCmp e0 { e0 with message := none } = 0 ∧
    javaCmp e0 { e0 with message := none, name := some c!"com.sun.java.InvalidOperation" } ≠ 0 := by decide +kernel

-- tests/java_frame.c:222-281
example : printFrame { name := some c!"com.redhat.abrt.duke.nuke", fileName := some c!"duke.java", fileLine := 666 } = c!"\tat com.redhat.abrt.duke.nuke(duke.java:666) [unknown]" := by decide +kernel
example : printFrame { name := some c!"com.redhat.abrt.duke.nuke", fileName := some c!"duke.java", isNative := true } = c!"\tat com.redhat.abrt.duke.nuke(Native Method) [unknown]" := by decide +kernel
example : printFrame { name := some c!"com.redhat.abrt.duke.nuke" } = c!"\tat com.redhat.abrt.duke.nuke(Unknown Source) [unknown]" := by decide +kernel
example : printFrame { name := some c!"com.redhat.abrt.duke.nuke", classPath := some c!"/usr/lib/java/Foo.class" } = c!"\tat com.redhat.abrt.duke.nuke(Unknown Source) [file:/usr/lib/java/Foo.class]" := by decide +kernel
example : printFrame { name := some c!"com.redhat.abrt.duke.nuke", classPath := some c!"http://localhost/Foo.class" } = c!"\tat com.redhat.abrt.duke.nuke(Unknown Source) [http://localhost/Foo.class]" := by decide +kernel
example : printFrame { name := some c!"com.sun.java.NullPointer", message := some c!"Null pointer exception", isException := true } = c!"com.sun.java.NullPointer: Null pointer exception" := by decide +kernel
example : printFrame { name := some c!"com.sun.java.NullPointer", isException := true } = c!"com.sun.java.NullPointer" := by decide +kernel
example : printFrame { isException := true } = c!"" := by decide +kernel
example : printFrame { isException := true, message := some c!"Null pointer exception" } = c!": Null pointer exception" := by decide +kernel

/-- `test_java_frame_parse_check`: the whole input is read and the frame agrees with the expected one. -/
def readsFrame (input : Str) (expected : JavaFrame) : Bool :=
  match parseFrame input with
  | .ok (some (f, rest)) => rest == [] && decide (javaCmp f expected = 0)
  | _ => false

-- tests/java_frame.c:305-540
example : readsFrame c!"    at com.redhat.abrt.duke.nuke(duke.java:666)"
    { name := some c!"com.redhat.abrt.duke.nuke", fileName := some c!"duke.java", fileLine := 666 } = true := by decide +kernel
example : readsFrame c!"    at com.redhat.abrt.duke.nuke(duke.java:666) [file:/usr/lib/java/foo.class]"
    { name := some c!"com.redhat.abrt.duke.nuke", fileName := some c!"duke.java", classPath := some c!"/usr/lib/java/foo.class", fileLine := 666 } = true := by decide +kernel
example : readsFrame c!"    at com.redhat.abrt.duke.nuke(duke.java:666) [http://localhost/foo.class]"
    { name := some c!"com.redhat.abrt.duke.nuke", fileName := some c!"duke.java", classPath := some c!"http://localhost/foo.class", fileLine := 666 } = true := by decide +kernel
example : readsFrame c!"    at com.redhat.abrt.duke.nuke(duke.java:666) [jar:file:/usr/lib/java/foo.jar!/foo.class]"
    { name := some c!"com.redhat.abrt.duke.nuke", fileName := some c!"duke.java", classPath := some c!"/usr/lib/java/foo.jar", fileLine := 666 } = true := by decide +kernel
example : readsFrame c!"    at com.redhat.abrt.duke.nuke(duke.java:666) [jar:http://localhost/foo.jar!/foo.class]"
    { name := some c!"com.redhat.abrt.duke.nuke", fileName := some c!"duke.java", classPath := some c!"http://localhost/foo.jar", fileLine := 666 } = true := by decide +kernel
example : readsFrame c!"    at com.redhat.abrt.duke.nuke(duke.java:666) [unknown]"
    { name := some c!"com.redhat.abrt.duke.nuke", fileName := some c!"duke.java", fileLine := 666 } = true := by decide +kernel
example : readsFrame c!"    at com.redhat.abrt.duke.nuke(Unknown Source:666)\n"
    { name := some c!"com.redhat.abrt.duke.nuke", fileLine := 666 } = true := by decide +kernel
example : readsFrame c!"    at (duke.java:666)\n"
    { fileName := some c!"duke.java", fileLine := 666 } = true := by decide +kernel
example : readsFrame c!"    at com.redhat.abrt.duke.nuke(duke.java)\n"
    { name := some c!"com.redhat.abrt.duke.nuke", fileName := some c!"duke.java" } = true := by decide +kernel
example : readsFrame c!"    at com.redhat.abrt.duke.nuke(duke.java:-1) [file:/usr/lib/java/foo.class]\n"
    { name := some c!"com.redhat.abrt.duke.nuke", fileName := some c!"duke.java", classPath := some c!"/usr/lib/java/foo.class" } = true := by decide +kernel
example : readsFrame c!"    at com.redhat.abrt.duke.nuke(duke.java:-1) [file:/home/user/lib/java/foo.class]\n"
    { name := some c!"com.redhat.abrt.duke.nuke", fileName := some c!"duke.java", classPath := some c!"/home/anonymized/lib/java/foo.class" } = true := by decide +kernel
example : readsFrame c!"    at com.redhat.abrt.duke.nuke(Native Method)\n"
    { name := some c!"com.redhat.abrt.duke.nuke", isNative := true } = true := by decide +kernel
example : readsFrame c!"  at (Unknown Source)\n"
    {} = true := by decide +kernel
-- tests/java_frame.c:543-564
example : parseFrame c!" fasdfd" = .ok none := by decide +kernel

/-- `test_java_frame_parse_exception_check`. -/
def readsException (input text : Str) (expected : List JavaFrame) : Bool :=
  match parseException (input.length + 1) input with
  | .ok (some (f :: fs, rest)) =>
    rest == [] && printFrame f == text && (f :: fs).length == expected.length &&
      ((f :: fs).zip expected).all fun p => decide (javaCmp p.1 p.2 = 0)
  | _ => false

-- tests/java_frame.c:606-755
example : readsException c!"com.sun.java.NullPointer: Null Pointer Exception"
    c!"com.sun.java.NullPointer: Null Pointer Exception"
    [{ name := some c!"com.sun.java.NullPointer", message := some c!"Null Pointer Exception", isException := true }] = true := by decide +kernel
example : readsException c!"com.sun.java.NullPointer: "
    c!"com.sun.java.NullPointer"
    [{ name := some c!"com.sun.java.NullPointer", isException := true }] = true := by decide +kernel
example : readsException c!"com.sun.java.NullPointer  "
    c!"com.sun.java.NullPointer"
    [{ name := some c!"com.sun.java.NullPointer", isException := true }] = true := by decide +kernel
example : readsException c!"com.sun.java.NullPointer: Null Pointer Exception\n\tat com.redhat.abrt.duke.nuke(duke.java:666)"
    c!"com.sun.java.NullPointer: Null Pointer Exception"
    [{ name := some c!"com.sun.java.NullPointer", message := some c!"Null Pointer Exception", isException := true }, { name := some c!"com.redhat.abrt.duke.nuke", fileName := some c!"duke.java", fileLine := 666 }] = true := by decide +kernel
example : readsException c!"com.sun.java.NullPointer: Null Pointer Exception\n\tat com.redhat.abrt.duke.nuke(duke.java:666)\n\tCaused by: com.sun.java.InvalidOperation: Invalid Operation\n\tat com.redhat.abrt.duke.nuke(duke.java:666)\n\t... 1 more\n\tCaused by: com.sun.java.InvalidOperation: Invalid Operation\n\tat com.redhat.abrt.duke.nuke(duke.java:666)\n\t... 2 more"
    c!"com.sun.java.InvalidOperation: Invalid Operation"
    [{ name := some c!"com.sun.java.InvalidOperation", isException := true }, { name := some c!"com.redhat.abrt.duke.nuke", fileName := some c!"duke.java", fileLine := 666 }, { name := some c!"com.sun.java.InvalidOperation", isException := true }, { name := some c!"com.redhat.abrt.duke.nuke", fileName := some c!"duke.java", fileLine := 666 }, { name := some c!"com.sun.java.NullPointer", message := some c!"Null Pointer Exception", isException := true }, { name := some c!"com.redhat.abrt.duke.nuke", fileName := some c!"duke.java", fileLine := 666 }] = true := by decide +kernel
-- tests/java_frame.c:758-789
example : parseException 40 c!": Null Pointer Exception" = .ok none ∧ parseException 40 [] = .ok none := by decide +kernel

/-! ## tests/java_thread.c and tests/java_stacktrace.c -/

/-- `create_real_stacktrace_objects` (tests/java_testcases.c). -/
def realFrames : List JavaFrame :=
  [{ name := some c!"java.lang.InvalidRangeException", message := some c!"null", isException := true },
   { name := some c!"MyVector.at", fileName := some c!"Containers.java", fileLine := 77 },
   { name := some c!"java.lang.NullPointerException", message := some c!"null", isException := true },
   { name := some c!"SimpleTest.execute", fileName := some c!"Test.java", fileLine := 7 },
   { name := some c!"SimpleTest.intercept", fileName := some c!"Test.java", fileLine := 2 },
   { name := some c!"java.lang.RuntimeException", message := some c!"java.lang.InvalidRangeException: undefined index", isException := true },
   { name := some c!"SimpleTest.throwNullPointerException", fileName := some c!"SimpleTest.java", fileLine := 36 },
   { name := some c!"SimpleTest.throwAndDontCatchException", fileName := some c!"SimpleTest.java", fileLine := 70 },
   { name := some c!"SimpleTest.main", fileName := some c!"SimpleTest.java", fileLine := 82 }]

/-- `create_real_main_thread_objects` (tests/java_testcases.c). -/
def realThread : JavaThread := { name := some c!"main", frames := realFrames }

/-- `get_real_thread_stacktrace` (tests/java_testcases.c). -/
def realText : Str :=
  c!"Exception in thread \"main\" java.lang.RuntimeException: java.lang.NullPointerException: null\n\tat SimpleTest.throwNullPointerException(SimpleTest.java:36)\n\tat SimpleTest.throwAndDontCatchException(SimpleTest.java:70)\n\tat SimpleTest.main(SimpleTest.java:82)\nCaused by: java.lang.NullPointerException: java.lang.InvalidRangeException: undefined index\n\tat SimpleTest.execute(Test.java:7)\n\tat SimpleTest.intercept(Test.java:2)\n\t... 3 more\nCaused by: java.lang.InvalidRangeException: undefined index\n\tat MyVector.at(Containers.java:77)\n\t... 5 more\n"

-- `test_java_thread_cmp` and `test_java_stacktrace_cmp`
example : javaThreadCmp realThread realThread = 0 ∧ javaThreadCmp realThread { realThread with frames := [] } ≠ 0 ∧
    javaThreadCmp realThread { realThread with name := some c!"worker" } ≠ 0 := by decide +kernel
example : javaTraceCmp ⟨[realThread]⟩ ⟨[realThread]⟩ = 0 ∧ javaTraceCmp ⟨[realThread]⟩ ⟨[]⟩ ≠ 0 := by decide +kernel
-- `test_java_thread_parse`
example : (match parseThread realText with
    | .ok (some (t, rest)) => rest == [] && decide (javaThreadCmp t realThread = 0)
    | _ => false) = true := by decide +kernel
-- `test_java_thread_remove_frame`, `_remove_frames_above` and `_remove_frames_below_n`; the frames are named by numbers
open Satyr.Threads in
example :
    let t : List (Node Unit) := (List.range 9).map fun i => ⟨i, ()⟩
    let ids := fun (l : List (Node Unit)) => l.map Node.id
    let r1 := removeFrame 0 t
    let r2 := removeFrame 8 r1.2
    let r3 := removeFrame 2 r2.2
    (r1.1, ids r1.2) = (true, [1, 2, 3, 4, 5, 6, 7, 8]) ∧ (r2.1, ids r2.2) = (true, [1, 2, 3, 4, 5, 6, 7]) ∧
      (r3.1, ids r3.2) = (true, [1, 3, 4, 5, 6, 7]) ∧ (removeFrame 2 r3.2).1 = false := by decide +kernel
open Satyr.Threads in
example :
    let t : List (Node Unit) := (List.range 9).map fun i => ⟨i, ()⟩
    let from' := fun (i : Nat) => (List.range (9 - i)).map fun k => (⟨i + k, ()⟩ : Node Unit)
    removeFramesAbove 0 t = .ok (true, t) ∧ removeFramesAbove 1 t = .ok (true, from' 1) ∧
      removeFramesAbove 8 (from' 1) = .ok (true, from' 8) ∧ removeFramesAbove 1 (from' 8) = .ok (false, from' 8) := by decide +kernel
open Satyr.Threads in
example :
    let t : List (Node Unit) := (List.range 9).map fun i => ⟨i, ()⟩
    removeFramesBelow 100 t = .ok t ∧ removeFramesBelow 2 t = .ok [⟨0, ()⟩, ⟨1, ()⟩] ∧
      removeFramesBelow 0 [⟨0, ()⟩, ⟨1, ()⟩] = (.ok [] : Out (List (Node Unit))) := by decide +kernel

end Satyr.Conformance.Java
