import Verif.Abrt.Model
import Verif.Short.Model
/-!
# The unit tests of core stack traces, run on the model

Inputs and expected results are those of tests/core_frame.c, tests/core_thread.c, tests/core_stacktrace.c, tests/json_files/core-01 and
tests/python/core.py, which the C functions pass. The examples do not prove anything for all inputs; they are evidence that the model is a
model of the code.
-/
namespace Satyr.Conformance.Core
open Satyr.CStr Satyr.Frames Satyr.Normalize Satyr.Json.Core

set_option maxRecDepth 40000

/-- The frames of the tests. -/
def test0 : CoreFrame := { newFrame with address := 68719476720, buildId := some c!"aabbccddeeff0", buildIdOffset := 2560, functionName := some c!"test0", fileName := some c!"executable0" }
/-- A frame of the tests. -/
def test1 : CoreFrame := { newFrame with address := 68719476721, buildId := some c!"aabbccddeeff1", buildIdOffset := 2561, functionName := some c!"test1", fileName := some c!"executable1", fingerprint := some c!"ab" }
/-- A frame of the tests. -/
def test2 : CoreFrame := { newFrame with address := 68719476722, buildId := some c!"aabbccddeeff2", buildIdOffset := 2562, functionName := some c!"test2", fileName := some c!"executable2", fingerprint := some c!"ab" }
/-- A frame of the tests. -/
def test3 : CoreFrame := { newFrame with address := 68719476723, buildId := some c!"aabbccddeeff3", buildIdOffset := 2563, functionName := some c!"test3", fileName := some c!"executable3" }

/-! `test_core_frame_to_json`, `test_core_frame_abstract_functions` (tests/core_frame.c:69-88, 91-116) -/

example : frameToJson test1 = c!"{   \"address\": 68719476721\n,   \"build_id\": \"aabbccddeeff1\"\n,   \"build_id_offset\": 2561\n,   \"function_name\": \"test1\"\n,   \"file_name\": \"executable1\"\n,   \"fingerprint\": \"ab\"\n}" := by decide +kernel
example : Short.coreFrame test1 = .ok c!"[executable1] test1" := by decide +kernel

/-! `test_core_thread_to_json` (tests/core_thread.c:26-57) -/

example : threadToJson { frames := [test1, test0] } false = c!"{   \"frames\":\n      [ {   \"address\": 68719476721\n        ,   \"build_id\": \"aabbccddeeff1\"\n        ,   \"build_id_offset\": 2561\n        ,   \"function_name\": \"test1\"\n        ,   \"file_name\": \"executable1\"\n        ,   \"fingerprint\": \"ab\"\n        }\n      , {   \"address\": 68719476720\n        ,   \"build_id\": \"aabbccddeeff0\"\n        ,   \"build_id_offset\": 2560\n        ,   \"function_name\": \"test0\"\n        ,   \"file_name\": \"executable0\"\n        } ]\n}" := by decide +kernel

/-! `test_core_stacktrace_to_json` (tests/core_stacktrace.c:56-136) -/

example : toJson { signal := 9, crashThread := some 1, threads := [{ frames := [test2, test3] }, { frames := [test1, test0] }] } =
    c!"{   \"signal\": 9\n,   \"stacktrace\":\n      [ {   \"frames\":\n              [ {   \"address\": 68719476722\n                ,   \"build_id\": \"aabbccddeeff2\"\n                ,   \"build_id_offset\": 2562\n                ,   \"function_name\": \"test2\"\n                ,   \"file_name\": \"executable2\"\n                ,   \"fingerprint\": \"ab\"\n                }\n              , {   \"address\": 68719476723\n                ,   \"build_id\": \"aabbccddeeff3\"\n                ,   \"build_id_offset\": 2563\n                ,   \"function_name\": \"test3\"\n                ,   \"file_name\": \"executable3\"\n                } ]\n        }\n      , {   \"crash_thread\": true\n        ,   \"frames\":\n              [ {   \"address\": 68719476721\n                ,   \"build_id\": \"aabbccddeeff1\"\n                ,   \"build_id_offset\": 2561\n                ,   \"function_name\": \"test1\"\n                ,   \"file_name\": \"executable1\"\n                ,   \"fingerprint\": \"ab\"\n                }\n              , {   \"address\": 68719476720\n                ,   \"build_id\": \"aabbccddeeff0\"\n                ,   \"build_id_offset\": 2560\n                ,   \"function_name\": \"test0\"\n                ,   \"file_name\": \"executable0\"\n                } ]\n        } ]\n}" := by
  decide +kernel

/-! `test_core_stacktrace_from_json` (tests/core_stacktrace.c:139-184) on tests/json_files/core-01 -/

example : Abrt.coreFromText c!"{   \"signal\": 6\n,   \"executable\": \"/usr/bin/will_abort\"\n,   \"extra_keys\": \"shall be ignored\"\n,   \"stacktrace\":\n      [ {   \"frames\":\n              [ {   \"address\": 87654\n                ,   \"build_id\": \"92ebaf825e4f492952c45189cb9ffc6541f8599b\"\n                ,   \"build_id_offset\": 42\n                ,   \"function_name\": \"fake_frame_for_the_sake_of_multiple_threads\"\n                ,   \"file_name\": \"/usr/bin/will_abort\"\n                }\n              , {   \"address\": 98346\n                ,   \"build_id\": \"92ebaf825e4f492952c45189cb9ffc6541f8599b\"\n                ,   \"build_id_offset\": 10734\n                ,   \"function_name\": \"fake_function\"\n                ,   \"file_name\": \"/usr/bin/will_abort\"\n                } ]\n        }\n      , {   \"crash_thread\": true\n        ,   \"frames\":\n              [ {   \"address\": 237190207797\n                ,   \"build_id\": \"cc10c72da62c93033e227ffbe2670f2c4fbbde1a\"\n                ,   \"build_id_offset\": 219445\n                ,   \"function_name\": \"raise\"\n                ,   \"file_name\": \"/usr/lib64/libc-2.15.so\"\n                ,   \"an_unknown_key\": \"fromTHEfuture\"\n                ,   \"fingerprint\": \"f33186a4c862fb0751bca60701f553b829210477\"\n                }\n              , {   \"address\": 237190213864\n                ,   \"build_id\": \"cc10c72da62c93033e227ffbe2670f2c4fbbde1a\"\n                ,   \"build_id_offset\": 225512\n                ,   \"function_name\": \"abort\"\n                ,   \"file_name\": \"/usr/lib64/libc-2.15.so\"\n                ,   \"fingerprint\": \"352bc5cf09233cea84fd089527a146cfb5b7d8dc\"\n                }\n              , {   \"address\": 4195427\n                ,   \"build_id\": \"92ebaf825e4f492952c45189cb9ffc6541f8599b\"\n                ,   \"build_id_offset\": 1123\n                ,   \"file_name\": \"/usr/bin/will_abort\"\n                }\n              , {   \"address\": 237190125365\n                ,   \"build_id\": \"cc10c72da62c93033e227ffbe2670f2c4fbbde1a\"\n                ,   \"build_id_offset\": 137013\n                ,   \"function_name\": \"__libc_start_main\"\n                ,   \"file_name\": \"/usr/lib64/libc-2.15.so\"\n                ,   \"fingerprint\": \"5ff4a3d3743fdde711c49033d1e01784477e57fb\"\n                } ]\n        } ]\n}\n" = some
    { signal := 6, executable := some c!"/usr/bin/will_abort", crashThread := some 1, threads := [
      { frames := [{ newFrame with address := 87654, buildId := some c!"92ebaf825e4f492952c45189cb9ffc6541f8599b", buildIdOffset := 42, functionName := some c!"fake_frame_for_the_sake_of_multiple_threads", fileName := some c!"/usr/bin/will_abort" },
        { newFrame with address := 98346, buildId := some c!"92ebaf825e4f492952c45189cb9ffc6541f8599b", buildIdOffset := 10734, functionName := some c!"fake_function", fileName := some c!"/usr/bin/will_abort" }] },
      { frames := [{ newFrame with address := 237190207797, buildId := some c!"cc10c72da62c93033e227ffbe2670f2c4fbbde1a", buildIdOffset := 219445, functionName := some c!"raise", fileName := some c!"/usr/lib64/libc-2.15.so", fingerprint := some c!"f33186a4c862fb0751bca60701f553b829210477" },
        { newFrame with address := 237190213864, buildId := some c!"cc10c72da62c93033e227ffbe2670f2c4fbbde1a", buildIdOffset := 225512, functionName := some c!"abort", fileName := some c!"/usr/lib64/libc-2.15.so", fingerprint := some c!"352bc5cf09233cea84fd089527a146cfb5b7d8dc" },
        { newFrame with address := 4195427, buildId := some c!"92ebaf825e4f492952c45189cb9ffc6541f8599b", buildIdOffset := 1123, fileName := some c!"/usr/bin/will_abort" },
        { newFrame with address := 237190125365, buildId := some c!"cc10c72da62c93033e227ffbe2670f2c4fbbde1a", buildIdOffset := 137013, functionName := some c!"__libc_start_main", fileName := some c!"/usr/lib64/libc-2.15.so", fingerprint := some c!"5ff4a3d3743fdde711c49033d1e01784477e57fb" }] }] } := by
  decide +kernel

/-! `test_from_json` (tests/python/core.py:67-149) -/

example : Abrt.coreFromText c!"{}" = some {} := by decide +kernel
example : Abrt.coreFromText c!"\n        {\n            \"signal\": 9,\n            \"executable\": \"C:\\\\porn.bat\",\n            \"only_crash_thread\": true,\n            \"stacktrace\": [\n                {\n                    \"frames\": [\n                        {\n                            \"address\": 60100,\n                            \"build_id\": \"aaaaaaaaaaaaaaaaaaaaaaaaAAAAAAAAAAA\",\n                            \"build_id_offset\": 5,\n                            \"function_name\": \"destroy_universe\",\n                            \"file_name\": \"del.exe\",\n                            \"fingerprint\": \"1234123412341234123412341234\",\n                            \"fingerprint_hashed\": true,\n                        },\n                        {},\n                        {\n                            \"address\": 2,\n                            \"fingerprint\": \"a b c d\",\n                            \"fingerprint_hashed\": false,\n                        }\n                    ]\n                },\n                {\n                    \"crash_thread\": true,\n                    \"bogus\": \"value\",\n                    \"frames\": [\n                        {\n                            \"address\": 1,\n                            \"build_id\": \"b\",\n                            \"build_id_offset\": 5,\n                        }\n                    ]\n                }\n            ]\n        }\n" = some
    { signal := 9, executable := some c!"C:\\porn.bat", onlyCrashThread := true, crashThread := some 1, threads := [
      { frames := [{ newFrame with address := 60100, buildId := some c!"aaaaaaaaaaaaaaaaaaaaaaaaAAAAAAAAAAA", buildIdOffset := 5, functionName := some c!"destroy_universe", fileName := some c!"del.exe", fingerprint := some c!"1234123412341234123412341234" },
        newFrame, { newFrame with address := 2, fingerprint := some c!"a b c d", fingerprintHashed := false }] },
      { frames := [{ newFrame with address := 1, buildId := some c!"b", buildIdOffset := 5 }] }] } := by
  decide +kernel

end Satyr.Conformance.Core
