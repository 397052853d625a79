import Verif.Hash.Bt
import Verif.Hash.Dup
/-!
# The exact texts that are hashed (C19, C20)

Hashes are stored and compared by other programs and later versions, so the texts are given here by their formats.
-/
namespace Satyr.Hash
open Satyr Satyr.CStr Satyr.Frames Satyr.Normalize Satyr.Threads Satyr.Koops

/-! ## Specification: printf -/

/-- An argument: a string, where NULL is shown as `<unknown>`; a number; a truth value. -/
inductive Arg where
  | str (s : Option Str)
  | num (n : Nat)
  | bool (b : Bool)

/-- The text for `%s`, `%u`, `%d` and `%x` and an argument. -/
def conv : Char → Arg → Str
  | 's', .str s => s.getD c!"<unknown>"
  | 'u', .num n => natDec n
  | 'd', .bool b => if b = true then c!"1" else c!"0"
  | 'x', .num n => natHex n
  | _, _ => []

def printf : Str → List Arg → Str
  | [], _ => []
  | c :: r, as =>
    if c = '%' then
      match r, as with
      | k :: r, a :: as => conv k a ++ printf r as
      | _, _ => []
    else c :: printf r as

example : printf c!"%s:%u %x\n" [.str none, .num 12, .num 255] = c!"<unknown>:12 ff\n" := by decide +kernel

/-- Texts with a blank line between. -/
def blankLines (l : List Str) : Str := (l.intersperse c!"\n").flatten

/-! ## Lemmas -/

theorem printf_char {c : Char} (h : c ≠ '%') (r : Str) (as : List Arg) : printf (c :: r) as = c :: printf r as := by
  rw [printf.eq_def]; dsimp only; rw [if_neg h]
theorem printf_conv (k : Char) (r : Str) (a : Arg) (as : List Arg) : printf ('%' :: k :: r) (a :: as) = conv k a ++ printf r as := by
  rw [printf.eq_def]; dsimp only; rw [if_pos rfl]
theorem printf_nil (as : List Arg) : printf [] as = [] := by rw [printf]

theorem conv_s (s : Option Str) : conv 's' (.str s) = orUnknown s := rfl
theorem conv_u (n : Nat) : conv 'u' (.num n) = natDec n := rfl
theorem conv_d (b : Bool) : conv 'd' (.bool b) = boolDec b := rfl
theorem conv_x (n : Nat) : conv 'x' (.num n) = natHex n := rfl

theorem threadsBt_eq {T F : Type} (head : T → Str) (frames : T → List F) (text : F → Str) : ∀ l : List T,
    threadsBt head frames text l = blankLines (l.map fun t => head t ++ (frames t).flatMap text)
  | [] => rfl
  | [t] => by simp [threadsBt, blankLines]
  | t :: u :: l => by
    rw [threadsBt.eq_def]
    dsimp only
    rw [threadsBt_eq head frames text (u :: l)]
    simp [blankLines]

/-- Unfolds formats. -/
macro "format" : tactic => `(tactic| simp (config := { decide := true }) [printf_char, printf_conv, printf_nil, conv_s, conv_u, conv_d, conv_x, joinFields, hex0x, threadsBt_eq, blankLines])

/-! ## C20: the text of a stack trace -/

/-- **C20.** The text for a gdb stack trace: a line for each library, a blank line, and the threads with blank lines between, each
with a line with its number and a line for each frame. -/
theorem C20_gdb_text (s : GdbTrace) : gdbBt s =
    s.libs.flatMap (fun l => printf c!"%x-%x, %s\n" [.num l.lo, .num l.hi, .str l.soname]) ++ c!"\n" ++
    blankLines (s.threads.map fun t => printf c!"Thread %u\n" [.num t.number] ++
      t.frames.flatMap fun f => printf c!"%s, %s, %u, %s, %u, %d, 0x%x, %s\n"
        [.str f.functionName, .str f.functionType, .num f.number, .str f.sourceFile, .num f.sourceLine,
          .bool f.signalHandlerCalled, .num f.address, .str f.libraryName]) := by
  have e1 : (fun l : Sharedlib => printf c!"%x-%x, %s\n" [.num l.lo, .num l.hi, .str l.soname]) = libBt := by
    funext l; rw [libBt]; format
  have e2 : (fun f : GdbFrame => printf c!"%s, %s, %u, %s, %u, %d, 0x%x, %s\n"
        [.str f.functionName, .str f.functionType, .num f.number, .str f.sourceFile, .num f.sourceLine,
          .bool f.signalHandlerCalled, .num f.address, .str f.libraryName]) = gdbFrameBt := by
    funext f; rw [gdbFrameBt]; format
  rw [e1, e2, gdbBt, threadsBt_eq]
  have e3 : ∀ t : GdbThread, printf c!"Thread %u\n" [.num t.number] = c!"Thread " ++ natDec t.number ++ c!"\n" := by
    intro t; format
  simp only [e3]

/-- **C20.** The text for a core stack trace: the executable, the signal, a blank line, and the threads with blank lines between,
each with a line for each frame. -/
theorem C20_core_text (s : CoreTrace) : coreBt s =
    printf c!"Executable: %s\nSignal: %u\n\n" [.str s.executable, .num s.signal] ++
    blankLines (s.threads.map fun t => t.frames.flatMap fun f =>
      if f.address = 0 then printf c!"<unknown>, %s+0x%x, %s, %s\n"
        [.str f.buildId, .num f.buildIdOffset, .str f.fileName, .str f.fingerprint]
      else printf c!"0x%x, %s+0x%x, %s, %s\n"
        [.num f.address, .str f.buildId, .num f.buildIdOffset, .str f.fileName, .str f.fingerprint]) := by
  have e2 : (fun f : CoreFrame =>
      if f.address = 0 then printf c!"<unknown>, %s+0x%x, %s, %s\n"
        [.str f.buildId, .num f.buildIdOffset, .str f.fileName, .str f.fingerprint]
      else printf c!"0x%x, %s+0x%x, %s, %s\n"
        [.num f.address, .str f.buildId, .num f.buildIdOffset, .str f.fileName, .str f.fingerprint]) = coreFrameBt := by
    funext f
    rw [coreFrameBt]
    by_cases h : f.address = 0
    · rw [if_pos h, if_neg (by simpa using h)]; format
    · rw [if_neg h, if_pos h]; format
  rw [e2, coreBt, threadsBt_eq]
  format

/-- **C20.** The text for a kernel oops: the version, an empty list of flags, the modules, a blank line, and a line for each
frame. -/
theorem C20_koops_text (s : KoopsTrace) : koopsBt s =
    printf c!"Version: %s\nFlags: \nModules: " [.str s.version] ++ ((s.modules.getD []).intersperse c!", ").flatten ++ c!"\n\n" ++
    s.frames.flatMap fun f => printf c!"0x%x, %d, %s, 0x%x, 0x%x, %s, 0x%x, %s, 0x%x, 0x%x, %s\n"
      [.num f.address, .bool f.reliable, .str f.functionName, .num f.functionOffset, .num f.functionLength, .str f.moduleName,
        .num f.fromAddress, .str f.fromFunctionName, .num f.fromFunctionOffset, .num f.fromFunctionLength,
        .str f.fromModuleName] := by
  have e2 : (fun f : KoopsFrame => printf c!"0x%x, %d, %s, 0x%x, 0x%x, %s, 0x%x, %s, 0x%x, 0x%x, %s\n"
      [.num f.address, .bool f.reliable, .str f.functionName, .num f.functionOffset, .num f.functionLength, .str f.moduleName,
        .num f.fromAddress, .str f.fromFunctionName, .num f.fromFunctionOffset, .num f.fromFunctionLength,
        .str f.fromModuleName]) = koopsFrameBt := by
    funext f; rw [koopsFrameBt]; format
  have e3 : ∀ l : List Str, (l.intersperse c!", ").flatten = modulesBt l := by
    intro l
    induction l with
    | nil => rfl
    | cons a l ih =>
      cases l with
      | nil => simp [modulesBt]
      | cons b l => rw [modulesBt.eq_def]; dsimp only; rw [← ih]; simp
  rw [e2, e3, koopsBt, threadsBt_eq]
  cases s.modules <;> format

/-- **C20.** The text for a Python stack trace: the exception, a blank line, and a line for each frame. -/
theorem C20_python_text (s : PythonTrace) : pythonBt s =
    printf c!"Exception: %s\n\n" [.str s.exceptionName] ++
    s.frames.flatMap fun f => printf c!"%s, %d, %u, %s, %d, %s\n"
      [.str f.fileName, .bool f.specialFile, .num f.fileLine, .str f.functionName, .bool f.specialFunction,
        .str f.lineContents] := by
  have e2 : (fun f : PythonFrame => printf c!"%s, %d, %u, %s, %d, %s\n"
      [.str f.fileName, .bool f.specialFile, .num f.fileLine, .str f.functionName, .bool f.specialFunction,
        .str f.lineContents]) = pythonFrameBt := by
    funext f; rw [pythonFrameBt]; format
  rw [e2, pythonBt, threadsBt_eq]
  format

/-- **C20.** The text for a Java stack trace: the threads with blank lines between, each with a line with its name and a line for
each frame. -/
theorem C20_java_text (s : JavaTrace) : javaBt s =
    blankLines (s.threads.map fun t => printf c!"Thread %s\n" [.str t.name] ++
      t.frames.flatMap fun f => printf c!"%s, %s, %u, %s, %d, %d, %s\n"
        [.str f.name, .str f.fileName, .num f.fileLine, .str f.classPath, .bool f.isNative, .bool f.isException,
          .str f.message]) := by
  have e2 : (fun f : JavaFrame => printf c!"%s, %s, %u, %s, %d, %d, %s\n"
        [.str f.name, .str f.fileName, .num f.fileLine, .str f.classPath, .bool f.isNative, .bool f.isException,
          .str f.message]) = javaFrameBt := by
    funext f; rw [javaFrameBt]; format
  rw [e2, javaBt, threadsBt_eq]
  have e3 : ∀ t : JavaThread, printf c!"Thread %s\n" [.str t.name] = c!"Thread " ++ orUnknown t.name ++ c!"\n" := by
    intro t; format
  simp only [e3]

/-- **C20.** The text for a Ruby stack trace: the exception, a blank line, and a line for each frame. -/
theorem C20_ruby_text (s : RubyTrace) : rubyBt s =
    printf c!"Exception: %s\n\n" [.str s.exceptionName] ++
    s.frames.flatMap fun f => printf c!"%s, %u, %s, %d, %u, %u\n"
      [.str f.fileName, .num f.fileLine, .str f.functionName, .bool f.specialFunction, .num f.blockLevel,
        .num f.rescueLevel] := by
  have e2 : (fun f : RubyFrame => printf c!"%s, %u, %s, %d, %u, %u\n"
      [.str f.fileName, .num f.fileLine, .str f.functionName, .bool f.specialFunction, .num f.blockLevel,
        .num f.rescueLevel]) = rubyFrameBt := by
    funext f; rw [rubyFrameBt]; format
  rw [e2, rubyBt, threadsBt_eq]
  format

/-- **C20.** The text for a JavaScript stack trace: the error, a blank line, and a line for each frame. -/
theorem C20_js_text (s : JsTrace) : jsBt s =
    printf c!"Error: %s\n\n" [.str s.exceptionName] ++
    s.frames.flatMap fun f => printf c!"%s, %u, %s\n" [.str f.fileName, .num f.fileLine, .str f.functionName] := by
  have e2 : (fun f : JsFrame => printf c!"%s, %u, %s\n" [.str f.fileName, .num f.fileLine, .str f.functionName]) = jsFrameBt := by
    funext f; rw [jsFrameBt]; format
  rw [e2, jsBt, threadsBt_eq]
  format

/-- **C20.** The hash is the SHA-1 of the text, or the text itself if no hash is asked for. -/
theorem C20_hash (sha1 : Str → Str) (text : Str) : bthash sha1 false text = sha1 text ∧ bthash sha1 true text = text := ⟨rfl, rfl⟩

example : jsBt { exceptionName := some c!"E", frames := [{ fileName := some c!"a.js", fileLine := 3 }] } =
    c!"Error: E\n\na.js, 3, <unknown>\n" := by decide +kernel

/-! ## C19: the lines of the frames -/

/-- **C19.** The line of a frame in the text of a thread: for gdb the type and the name of the function, and whether a signal
handler was called; for core dumps the build id, or else the name of the function, or else the fingerprint, or else the address;
for kernel oopses the name of the function or else its address, and nothing for unreliable frames in the compatible form; for
Java the name, or else the class path, the file and the line; for the others the file and the line. -/
theorem C19_text :
    (∀ f : GdbFrame, gdbDup f = c!" " ++ (f.functionType.elim [] fun t => printf c!" %s" [.str t]) ++
      (f.functionName.elim [] fun n => printf c!" %s" [.str n]) ++
      (if f.signalHandlerCalled = true then c!" <signal handler called>" else []) ++ c!"\n") ∧
    (∀ f : CoreFrame, coreDup f =
      match f.buildId, f.functionName, f.fingerprint with
      | some b, _, _ => printf c!"%s+0x%x\n" [.str b, .num f.buildIdOffset]
      | none, some n, _ => printf c!"  %s\n" [.str n]
      | none, none, some p => printf c!"%s+0x%x\n" [.str p, .num f.buildIdOffset]
      | none, none, none => printf c!"0x%x\n" [.num f.address]) ∧
    (∀ (fl : DupFlags) (f : KoopsFrame), koopsDup fl f =
      if fl.koopsCompat = true ∧ f.reliable = false then []
      else f.functionName.elim (printf c!"0x%x\n" [.num f.address]) fun n => printf c!"%s\n" [.str n]) ∧
    (∀ f : PythonFrame, pythonDup f = printf c!"%s:%u\n" [.str f.fileName, .num f.fileLine]) ∧
    (∀ f : JavaFrame, javaDup f = f.name.elim
      (printf c!"%s/%s:%u\n" [.str f.classPath, .str f.fileName, .num f.fileLine]) fun n => printf c!"%s\n" [.str n]) ∧
    (∀ f : RubyFrame, rubyDup f = printf c!"%s:%u\n" [.str f.fileName, .num f.fileLine]) ∧
    (∀ f : JsFrame, jsDup f = printf c!"%s:%u\n" [.str f.fileName, .num f.fileLine]) := by
  refine ⟨fun f => ?_, fun f => ?_, fun fl f => ?_, fun f => ?_, fun f => ?_, fun f => ?_, fun f => ?_⟩
  · rw [gdbDup]
    cases f.functionType <;> cases f.functionName <;> format <;> rfl
  · rw [coreDup]
    cases f.buildId <;> cases f.functionName <;> cases f.fingerprint <;> format <;> rfl
  · rw [koopsDup]
    cases fl.koopsCompat <;> cases f.reliable <;> cases f.functionName <;> format <;> rfl
  · rw [pythonDup]; format
  · rw [javaDup]
    cases f.name <;> format; rfl
  · rw [rubyDup]; format
  · rw [jsDup]; format

end Satyr.Hash
