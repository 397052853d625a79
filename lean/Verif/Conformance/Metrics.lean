import Verif.Metrics.GdbCompare
import Verif.Cluster.Spec
import Verif.Crash.Model
import Verif.Frames.ThreadCmp
/-!
# The unit tests of distances, clusters and normalization, run on the model

Inputs and expected results are those of tests/metrics.c, tests/cluster.c and tests/normalize.c, which the C functions pass (with a small
tolerance for floating point numbers, where the model is exact). They do not prove anything for all inputs; they are evidence that the
model is a model of the code.
-/
namespace Satyr.Conformance.Metrics
open Satyr.CStr Satyr.Frames Satyr.Normalize Satyr.Metrics Satyr.Distances

set_option maxRecDepth 20000

/-! ## tests/metrics.c -/

/-- `create_threadv` (tests/metrics.c:22-49). -/
def thread (names : List Str) : List GdbFrame :=
  names.map fun n => { functionName := some n, sourceLine := 4294967295, address := 18446744073709551615 }

/-- `test` with `normalize` (tests/metrics.c:122-175). -/
def paired (ty : DistType) (a b : List Str) : Out Rat :=
  let r := pairUnknown (thread a) (thread b)
  GdbCompare.plain (some ty) r.1 r.2

/-- `test` without `normalize`. -/
def unpaired (ty : DistType) (a b : List Str) : Out Rat := GdbCompare.plain (some ty) (thread a) (thread b)

-- tests/metrics.c:409-421
example : paired .jaroWinkler [] [c!"??", c!"ds", c!"main"] = .ok 0 ∧ paired .jaccard [] [c!"??", c!"ds", c!"main"] = .ok 1 ∧
    paired .levenshtein [] [c!"??", c!"ds", c!"main"] = .ok 1 := by decide +kernel
example : paired .jaroWinkler [] [] = .ok 1 ∧ paired .jaccard [] [] = .ok 0 ∧ paired .levenshtein [] [] = .ok 0 := by decide +kernel
example : paired .jaroWinkler [c!"??", c!"sd"] [c!"??", c!"ds", c!"main"] = .ok 0 ∧
    paired .jaccard [c!"??", c!"sd"] [c!"??", c!"ds", c!"main"] = .ok 1 ∧
    paired .levenshtein [c!"??", c!"sd"] [c!"??", c!"ds", c!"main"] = .ok 1 := by decide +kernel
-- tests/metrics.c:422-472
example : paired .jaroWinkler [c!"??"] [c!"??", c!"ds", c!"main"] = .ok 0 ∧ paired .jaccard [c!"??"] [c!"??", c!"ds", c!"main"] = .ok 1 ∧
    paired .levenshtein [c!"??"] [c!"??", c!"ds", c!"main"] = .ok 1 := by decide +kernel
example : paired .levenshtein [c!"??", c!"ds", c!"main"] [c!"??", c!"ds", c!"main"] = .ok 0 := by decide +kernel
example : paired .levenshtein [c!"dg", c!"??", c!"ds", c!"main"] [c!"dg", c!"??", c!"ds", c!"main"] = .ok 0 := by decide +kernel
example : paired .levenshtein [c!"dg", c!"??", c!"ds"] [c!"dg", c!"??", c!"ds", c!"main"] = .ok (1 / 4) := by decide +kernel
example : paired .levenshtein [c!"dg", c!"??"] [c!"dg", c!"??", c!"main"] = .ok (2 / 3) := by decide +kernel
example : paired .levenshtein [c!"dg", c!"??", c!"??"] [c!"dg", c!"??", c!"??", c!"main"] = .ok (3 / 4) := by decide +kernel
example : paired .levenshtein [c!"??", c!"??", c!"main"] [c!"??", c!"??"] = .ok 1 := by decide +kernel
example : paired .levenshtein [c!"ale", c!"asd", c!"??", c!"agd", c!"dsa"] [c!"ale", c!"huga", c!"asd", c!"??", c!"agd"] = .ok (2 / 5) := by
  decide +kernel
example : paired .levenshtein [c!"asd", c!"??", c!"agd", c!"dsa"] [c!"asd", c!"agd", c!"??", c!"dsa"] = .ok (1 / 2) := by decide +kernel
example : paired .jaccard [c!"asd", c!"agd", c!"agd", c!"??"] [c!"asd", c!"agd", c!"??"] = .ok 0 := by decide +kernel
-- tests/metrics.c:473-487
example : unpaired .levenshtein [c!"a", c!"b", c!"c", c!"d"] [c!"b", c!"a", c!"d", c!"c"] = .ok (3 / 4) ∧
    unpaired .damerauLevenshtein [c!"a", c!"b", c!"c", c!"d"] [c!"b", c!"a", c!"d", c!"c"] = .ok (1 / 2) := by decide +kernel
example : unpaired .jaccard [c!"asd", c!"agd", c!"agd"] [c!"sad", c!"agd"] = .ok (2 / 3) := by decide +kernel
example : unpaired .jaccard [c!"asd", c!"agd", c!"gad", c!"sad", c!"abc"] [c!"sad", c!"sad", c!"sad", c!"gad"] = .ok (3 / 5) := by decide +kernel

/-- `prepare_threads` (tests/metrics.c:223-234). -/
def threads : List (List GdbFrame) :=
  [thread [c!"asd", c!"agd", c!"das", c!"??"], thread [c!"asd", c!"agd", c!"??"], thread [c!"asd", c!"agd", c!"??"],
   thread [c!"dg", c!"??", c!"??"], thread [c!"foo", c!"??"], thread [c!"bbb", c!"??", c!"foo", c!"bar", c!"baz"], thread [c!"dg"],
   thread [c!"bar", c!"das", c!"baz"]]

/-- The value `sr_distances_get_distance` gives after `sr_threads_compare`. -/
def compared (m n i j : Nat) : Out (Out Rat) := do
  let d ← threadsCompare (GdbCompare.compare (some .jaccard)) (fun _ => true) threads m n
  Distances.get (.ok 0) d i j

-- tests/metrics.c:236-271
example : compared 3 4 0 1 = .ok (.ok (3 / 5)) ∧ compared 3 4 0 2 = .ok (.ok (3 / 5)) ∧ compared 3 4 0 3 = .ok (.ok 1) ∧
    compared 3 4 1 2 = .ok (.ok 0) ∧ compared 3 4 1 3 = .ok (.ok 1) ∧ compared 3 4 2 3 = .ok (.ok 1) := by decide +kernel

/-- How many parts `sr_distances_part_create` makes. -/
def numberOfParts (m n k : Nat) : Option Nat :=
  match partCreate Rat m n .levenshtein k with
  | .ok l => some l.length
  | _ => none

-- tests/metrics.c:273-326
example : ([(3, 8, 1), (3, 8, 2), (3, 8, 3), (3, 8, 4), (3, 8, 5), (3, 8, 6), (3, 8, 7), (3, 8, 8), (3, 8, 9), (3, 8, 10), (3, 8, 11),
    (3, 8, 12), (3, 8, 13), (3, 8, 18), (3, 8, 19), (3, 8, 5000), (1, 50, 50), (1, 50, 3000)].all
    fun (m, n, k) => numberOfParts m n k == some (min k (m * (m - 1) / 2 + m * (n - m)))) = true := by decide +kernel

/-- The parts are made, computed and merged. -/
def conquered (m n k : Nat) : Out (Option (Matrix (Out Rat))) := do
  let parts ← partCreate (Out Rat) m n .jaccard k
  let parts ← parts.mapM (partCompute (fun ty a b => GdbCompare.compare (some ty) a b) (fun _ => 1) threads)
  partMerge parts

/-- The matrix computed from the parts is the one computed at once. -/
def sameMatrix (m n k : Nat) : Bool :=
  match conquered m n k, threadsCompare (GdbCompare.compare (some .jaccard)) (fun _ => true) threads m n with
  | .ok (some a), .ok b =>
    (loopPairs m n).all fun (i, j) =>
      match Distances.get (.ok 0) a i j, Distances.get (.ok 0) b i j with
      | .ok x, .ok y => x == y
      | _, _ => false
  | _, _ => false

-- tests/metrics.c:328-400
example : ([(3, 4, 1), (3, 4, 2), (3, 4, 3), (3, 4, 4), (2, 5, 1), (2, 5, 2), (2, 5, 3), (2, 5, 4), (7, 8, 1), (7, 8, 2), (7, 8, 4),
    (7, 8, 8), (7, 8, 16)].all fun (m, n, k) => sameMatrix m n k) = true := by decide +kernel

/-! ## tests/cluster.c -/

/-- `sr_distances_set_distance` for each entry of the list. -/
def matrix (m n : Nat) (l : List (Nat × Nat × Rat)) : Out (Matrix Rat) := do
  let d ← Distances.new Rat m n
  l.foldlM (fun d (i, j, v) => Distances.set d i j v) d

/-- The dendrogram of a matrix. -/
def dendrogram (m n : Nat) (l : List (Nat × Nat × Rat)) : Out (Cluster.Dendrogram Rat) := do
  Cluster.clusterObjects Cluster.ratArith (← matrix m n l)

-- tests/cluster.c:6-35
example : dendrogram 3 4 [(0, 1, 1), (0, 2, 1 / 2), (0, 3, 0), (1, 2, 1 / 10), (1, 3, 3 / 10), (2, 3, 7 / 10)] =
    .ok ⟨[0, 3, 1, 2], [0, 5 / 8, 1 / 10]⟩ := by decide +kernel
-- tests/cluster.c:37-69
example : dendrogram 1 6 [(0, 1, 1), (0, 2, 1 / 2), (0, 3, 3 / 10), (0, 4, 0), (0, 5, 9 / 10)] =
    .ok ⟨[0, 4, 3, 2, 5, 1], [0, 3 / 10, 1 / 2, 9 / 10, 1]⟩ := by decide +kernel

/-- The dendrogram of both tests. -/
def tree : Cluster.Dendrogram Rat := ⟨[0, 3, 1, 2, 4, 5], [0, 3 / 5, 1 / 10, 1 / 2, 3 / 10]⟩

-- tests/cluster.c:71-133
example : Cluster.cut (fun a b => decide (a ≤ b)) tree (1 / 5) 1 = .ok [[5], [4], [1, 2], [0, 3]] := by decide +kernel
-- tests/cluster.c:135-170
example : Cluster.cut (fun a b => decide (a ≤ b)) tree (1 / 2) 3 = .ok [[1, 2, 4, 5]] := by decide +kernel

/-! ## tests/normalize.c -/

/-- `create_thread` (tests/normalize.c:8-48). -/
def stack (names : List Str) : GdbThread :=
  { number := 4294967295, tid := 4294967295,
    frames := names.map fun n =>
      { functionName := some n, sourceFile := some [], sourceLine := 4294967295, address := 18446744073709551615 } }

/-- The same with another file for the `i`-th frame. -/
def withFile (i : Nat) (file : Str) (t : GdbThread) : GdbThread :=
  { t with frames := t.frames.modify i fun f => { f with sourceFile := some file } }

/-- The names that are left after `sr_normalize_gdb_thread`. -/
def namesAfter (t : GdbThread) : Out (List (Option Str)) := do
  .ok ((← Crash.normalizeThread t).frames.map (·.functionName))

-- tests/normalize.c:50-78
example : (namesAfter (stack [c!"aa", c!"abort", c!"raise", c!"__assert_fail_base", c!"ee"])) = .ok [some c!"ee"] := by decide +kernel
example : (namesAfter (withFile 1 c!"abort.c" (stack [c!"aa", c!"abort", c!"bb", c!"cc", c!"dd"]))) =
    .ok [some c!"bb", some c!"cc", some c!"dd"] := by decide +kernel
example : (namesAfter (withFile 2 c!"libc.so" (withFile 1 c!"abort.c" (stack [c!"aa", c!"abort", c!"raise", c!"dd", c!"ee"])))) =
    .ok [some c!"dd", some c!"ee"] := by decide +kernel

/-- The frame in the middle. -/
def tempFile : GdbFrame :=
  { functionName := some c!"write_to_temp_file", number := 1, sourceFile := some c!"gfileutils.c", sourceLine := 980, address := 215308363773 }

-- tests/normalize.c:80-117
example : Crash.normalizeThread ⟨0, 4294967295, [{ functionName := some c!"??", sourceLine := 4294967295 }, tempFile,
      { functionName := some c!"??", number := 2, sourceLine := 4294967295 }]⟩ = .ok ⟨0, 4294967295, [tempFile]⟩ := by decide +kernel

/-- Both threads after the pairing are the expected ones (`sr_gdb_thread_cmp` gives 0). -/
def pairs (a b c d : List Str) : Bool :=
  let r := pairUnknown (stack a).frames (stack b).frames
  gdbThreadCmp (stack c) { stack a with frames := r.1 } == 0 && gdbThreadCmp (stack d) { stack b with frames := r.2 } == 0

-- tests/normalize.c:119-153
example : pairs [c!"aa", c!"??", c!"??", c!"??", c!"??"] [c!"bb", c!"aa", c!"??", c!"??", c!"??"]
    [c!"aa", c!"??", c!"??", c!"??", c!"??"] [c!"bb", c!"aa", c!"??", c!"??", c!"??"] = true := by decide +kernel
example : pairs [c!"bb", c!"aa", c!"??", c!"??", c!"??"] [c!"aa", c!"??", c!"??", c!"??", c!"??"]
    [c!"bb", c!"aa", c!"??", c!"??", c!"??"] [c!"aa", c!"??", c!"??", c!"??", c!"??"] = true := by decide +kernel
-- tests/normalize.c:155-178
example : pairs [c!"aa", c!"??", c!"cc", c!"cc", c!"??"] [c!"bb", c!"aa", c!"??", c!"cc", c!"??"]
    [c!"aa", c!"__unknown_function_0", c!"cc", c!"cc", c!"__unknown_function_1"]
    [c!"bb", c!"aa", c!"__unknown_function_0", c!"cc", c!"__unknown_function_1"] = true := by decide +kernel
-- tests/normalize.c:180-203
example : pairs [c!"aa", c!"??", c!"cc", c!"??", c!"dd"] [c!"bb", c!"??", c!"cc", c!"??", c!"dd"]
    [c!"aa", c!"??", c!"cc", c!"__unknown_function_0", c!"dd"] [c!"bb", c!"??", c!"cc", c!"__unknown_function_0", c!"dd"] = true := by
  decide +kernel
-- tests/normalize.c:205-239
example : pairs [c!"aa", c!"cc", c!"??", c!"??", c!"??"] [c!"bb", c!"??", c!"??", c!"??", c!"??"]
    [c!"aa", c!"cc", c!"??", c!"??", c!"??"] [c!"bb", c!"??", c!"??", c!"??", c!"??"] = true := by decide +kernel
example : pairs [c!"bb", c!"??", c!"??", c!"??", c!"??"] [c!"aa", c!"cc", c!"??", c!"??", c!"??"]
    [c!"bb", c!"??", c!"??", c!"??", c!"??"] [c!"aa", c!"cc", c!"??", c!"??", c!"??"] = true := by decide +kernel

-- tests/normalize.c:241-294
example : namesAfter ⟨0, 4294967295,
      [{ functionName := some c!"os::abort", number := 0, sourceFile := some c!"os_linux.cpp", sourceLine := 1594, address := 140576879186521 },
       { functionName := some c!"VMError::report_and_die", number := 1, sourceFile := some c!"vmError.cpp", sourceLine := 1053,
         address := 140576880755695 },
       { functionName := some c!"JVM_handle_linux_signal", number := 2, sourceFile := some c!"os_linux_x86.cpp", sourceLine := 531,
         address := 140576879218799 },
       { functionName := some c!"jthread_map_push", number := 3, sourceFile := some c!"jthread_map.c", sourceLine := 110,
         address := 140576863549728 }]⟩ = .ok [some c!"jthread_map_push"] := by decide +kernel

end Satyr.Conformance.Metrics
