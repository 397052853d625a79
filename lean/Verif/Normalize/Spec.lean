import Verif.Normalize.Model
import Mathlib.Data.List.Destutter
/-!
# Specification vocabulary for normalization
-/
namespace Satyr.Normalize
open Satyr.CStr Satyr.Threads

/-- What follows the last element satisfying `p`; the whole list if there is none. -/
def afterLast {A : Type} (p : A → Bool) (l : List A) : List A := (l.reverse.takeWhile fun x => !p x).reverse

/-- The list without its first element if that satisfies `p`. -/
def dropFirstIf {A : Type} (p : A → Bool) : List A → List A
  | [] => []
  | x :: l => if p x then l else x :: l

/-- The list without its last element if that satisfies `p`. -/
def dropLastIf {A : Type} (p : A → Bool) (l : List A) : List A := (dropFirstIf p l.reverse).reverse

/-- The documented renaming: the prefix `IA__` of GLib, GTK and GDK functions and the prefix `__GI_` are dropped. -/
def stripSpec (n : Str) : Str :=
  if c!"IA__gdk" <+: n ∨ c!"IA__g_" <+: n ∨ c!"IA__gtk" <+: n then n.drop 4
  else if c!"__GI_" <+: n then n.drop 5
  else n

/-- The name (without prefix) is an architecture-specific variant of the string function `f`, in a file of libc. -/
def ArchVariant (old file : Str) (f : Str) : Prop :=
  ∃ s ∈ archSuffixes, stripSpec old = c!"__" ++ f ++ s.1 ∧
    ∃ pat ∈ [f, s.2, c!"libc.so"], pat <:+: file

/-- `new` is the normalized name of a function called `old` in `file`. -/
def NewName (old file new : Str) : Prop :=
  (∃ f ∈ archFunctions, ArchVariant old file f ∧ new = f) ∨
    ((∀ f ∈ archFunctions, ¬ ArchVariant old file f) ∧ new = stripSpec old)

/-- `n` is the frame `k` with nothing changed but the function name, which is the normalized one. -/
def GdbRenamed (k n : GdbFrame) : Prop :=
  n = { k with functionName := n.functionName } ∧
    match k.functionName, k.sourceFile with
    | none, _ => n.functionName = none
    | some old, none => n.functionName = some old
    | some old, some file => ∃ new, n.functionName = some new ∧ NewName old file new

/-- `n` is the frame `k` with the function name normalized and the user name hidden in the file name. -/
def CoreRenamed (k n : CoreFrame) : Prop :=
  n = { k with functionName := n.functionName, fileName := k.fileName.map anonymizePath } ∧
    match k.functionName, k.fileName with
    | none, _ => n.functionName = none
    | some old, none => n.functionName = some (stripSpec old)
    | some old, some file => ∃ new, n.functionName = some new ∧ NewName old file new

/-- A function listed in the table, with one of the listed strings occurring in its file name. -/
def Listed (table : List (Str × List Str)) (name file : Option Str) : Prop :=
  ∃ e ∈ table, name = some e.1 ∧ ∃ f, file = some f ∧ ∃ pat ∈ e.2, pat <:+: f

/-- As `Listed`, where an empty list of strings means that the file does not matter. -/
def ListedAny (table : List (Str × List Str)) (name file : Option Str) : Prop :=
  ∃ e ∈ table, name = some e.1 ∧ (e.2 = [] ∨ ∃ f, file = some f ∧ ∃ pat ∈ e.2, pat <:+: f)

/-- The name has two of the removed prefixes in a row. -/
def DoublePrefix (n : Str) : Prop :=
  ∃ p ∈ [c!"IA__gdk", c!"IA__g_", c!"IA__gtk", c!"__GI_"], c!"__GI_" ++ p <+: n

end Satyr.Normalize
