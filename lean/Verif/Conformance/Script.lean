import Verif.Text.RubyModel
import Verif.Text.JsLocModel
import Verif.Json.ScriptModel
import Verif.Short.Model
import Verif.Frames.Cmp
import Verif.Report.Reason
/-!
# The unit tests of Ruby and JavaScript, run on the model

Inputs and expected results are those of tests/ruby_frame.c, tests/ruby_stacktrace.c, tests/js_frame.c and tests/js_stacktrace.c, which
the C functions pass. They do not prove anything for all inputs; they are evidence that the model is a model of the code.
-/
namespace Satyr.Conformance.Script
open Satyr.CStr Satyr.Frames

set_option maxRecDepth 20000

/-! ## tests/ruby_frame.c -/

def rescueLine : Str := c!"/usr/share/ruby/vendor_ruby/will_crash.rb:13:in `rescue in block (2 levels) in func'"
def rescueFrame : RubyFrame := ⟨some c!"/usr/share/ruby/vendor_ruby/will_crash.rb", 13, false, some c!"func", 2, 1⟩

-- tests/ruby_frame.c:265-291
example : Text.Ruby.parseFrame rescueLine = .ok (some (rescueFrame, [])) := by decide +kernel
example : Text.Ruby.parseFrame c!"/home/u/work/will:crash/will_crash.rb:30:in `block in <class:WillClass>'" =
    .ok (some (⟨some c!"/home/anonymized/work/will:crash/will_crash.rb", 30, true, some c!"class:WillClass", 1, 0⟩, [])) := by decide +kernel
example : Text.Ruby.parseFrame c!"./will_ruby_raise:8:in `<main>'" = .ok (some (⟨some c!"./will_ruby_raise", 8, true, some c!"main", 0, 0⟩, [])) := by
  decide +kernel
-- tests/ruby_frame.c:44-58
example : Text.Ruby.parseFrame c!"i;dikasdfxc" = .ok none := by decide +kernel
-- tests/ruby_frame.c:60-93
example : rubyCmp rescueFrame rescueFrame = 0 ∧ rubyCmp rescueFrame { rescueFrame with fileLine := 9000 } ≠ 0 := by decide +kernel
-- tests/ruby_frame.c:145-169
example : Short.rubyFrame rescueFrame = c!"rescue in block (2 levels) in func in /usr/share/ruby/vendor_ruby/will_crash.rb:13" := by decide +kernel
-- tests/ruby_frame.c:171-197
example : Json.Ruby.frameToJson rescueFrame =
    c!"{   \"file_name\": \"/usr/share/ruby/vendor_ruby/will_crash.rb\"\n,   \"file_line\": 13\n,   \"function_name\": \"func\"\n,   \"block_level\": 2\n,   \"rescue_level\": 1\n}" := by
  decide +kernel

/-! ## tests/ruby_stacktrace.c -/

/-- A result of a parser with nothing left of the text, for which `p` holds. -/
def whole {T : Type} (r : Out (Option (T × Str))) (p : T → Bool) : Bool :=
  match r with
  | .ok (some (t, [])) => p t
  | _ => false

/-- tests/ruby_stacktraces/ruby-03 -/
def ruby03 : Str := c!"/usr/share/gems/gems/openshift-origin-node-1.18.0.1/lib/openshift-origin-node/utils/tc.rb:103:in `get_interface_mtu': Unable to determine external network interface IP address. (RuntimeError)\n\tfrom /usr/share/gems/gems/openshift-origin-node-1.18.0.1/lib/openshift-origin-node/utils/tc.rb:77:in `initialize'\n\tfrom /sbin/oo-admin-ctl-tc:24:in `new'\n\tfrom /sbin/oo-admin-ctl-tc:24:in `<main>'"
/-- tests/ruby_stacktraces/ruby-03-expected-json -/
def ruby03Json : Str := c!"{   \"exception_name\": \"RuntimeError\"\n,   \"stacktrace\":\n      [ {   \"file_name\": \"/usr/share/gems/gems/openshift-origin-node-1.18.0.1/lib/openshift-origin-node/utils/tc.rb\"\n        ,   \"file_line\": 103\n        ,   \"function_name\": \"get_interface_mtu\"\n        }\n      , {   \"file_name\": \"/usr/share/gems/gems/openshift-origin-node-1.18.0.1/lib/openshift-origin-node/utils/tc.rb\"\n        ,   \"file_line\": 77\n        ,   \"function_name\": \"initialize\"\n        }\n      , {   \"file_name\": \"/sbin/oo-admin-ctl-tc\"\n        ,   \"file_line\": 24\n        ,   \"function_name\": \"new\"\n        }\n      , {   \"file_name\": \"/sbin/oo-admin-ctl-tc\"\n        ,   \"file_line\": 24\n        ,   \"special_function\": \"main\"\n        } ]\n}"
/-- tests/ruby_stacktraces/ruby-01 -/
def ruby01 : Str := c!"/usr/share/ruby/vendor_ruby/will_crash.rb:13:in `rescue in block (2 levels) in func': Exception\nsuccessfully\nraised. (Wrap::MyException)\n\tfrom /usr/share/ruby/vendor_ruby/will_crash.rb:10:in `block (2 levels) in func'\n\tfrom /usr/share/ruby/vendor_ruby/will_crash.rb:9:in `times'\n\tfrom /usr/share/ruby/vendor_ruby/will_crash.rb:9:in `block in func'\n\tfrom /usr/share/ruby/vendor_ruby/will_crash.rb:8:in `times'\n\tfrom /usr/share/ruby/vendor_ruby/will_crash.rb:8:in `func'\n\tfrom /usr/share/ruby/vendor_ruby/will_crash.rb:30:in `block in <class:WillClass>'\n\tfrom /usr/share/ruby/vendor_ruby/will_crash.rb:28:in `times'\n\tfrom /usr/share/ruby/vendor_ruby/will_crash.rb:28:in `rescue in rescue in rescue in <class:WillClass>'\n\tfrom /usr/share/ruby/vendor_ruby/will_crash.rb:25:in `rescue in rescue in <class:WillClass>'\n\tfrom /usr/share/ruby/vendor_ruby/will_crash.rb:22:in `rescue in <class:WillClass>'\n\tfrom /usr/share/ruby/vendor_ruby/will_crash.rb:19:in `<class:WillClass>'\n\tfrom /usr/share/ruby/vendor_ruby/will_crash.rb:6:in `<top (required)>'\n\tfrom /usr/share/rubygems/rubygems/core_ext/kernel_require.rb:55:in `require'\n\tfrom /usr/share/rubygems/rubygems/core_ext/kernel_require.rb:55:in `require'\n\tfrom /usr/bin/will_ruby_raise:11:in `block (2 levels) in <module:WillModule>'\n\tfrom /usr/bin/will_ruby_raise:10:in `times'\n\tfrom /usr/bin/will_ruby_raise:10:in `block in <module:WillModule>'\n\tfrom /usr/bin/will_ruby_raise:9:in `times'\n\tfrom /usr/bin/will_ruby_raise:9:in `<module:WillModule>'\n\tfrom /usr/bin/will_ruby_raise:8:in `<main>'\n"
/-- tests/ruby_stacktraces/ruby-01-expected-json -/
def ruby01Json : Str := c!"{   \"exception_name\": \"Wrap::MyException\"\n,   \"stacktrace\":\n      [ {   \"file_name\": \"/usr/share/ruby/vendor_ruby/will_crash.rb\"\n        ,   \"file_line\": 13\n        ,   \"function_name\": \"func\"\n        ,   \"block_level\": 2\n        ,   \"rescue_level\": 1\n        }\n      , {   \"file_name\": \"/usr/share/ruby/vendor_ruby/will_crash.rb\"\n        ,   \"file_line\": 10\n        ,   \"function_name\": \"func\"\n        ,   \"block_level\": 2\n        }\n      , {   \"file_name\": \"/usr/share/ruby/vendor_ruby/will_crash.rb\"\n        ,   \"file_line\": 9\n        ,   \"function_name\": \"times\"\n        }\n      , {   \"file_name\": \"/usr/share/ruby/vendor_ruby/will_crash.rb\"\n        ,   \"file_line\": 9\n        ,   \"function_name\": \"func\"\n        ,   \"block_level\": 1\n        }\n      , {   \"file_name\": \"/usr/share/ruby/vendor_ruby/will_crash.rb\"\n        ,   \"file_line\": 8\n        ,   \"function_name\": \"times\"\n        }\n      , {   \"file_name\": \"/usr/share/ruby/vendor_ruby/will_crash.rb\"\n        ,   \"file_line\": 8\n        ,   \"function_name\": \"func\"\n        }\n      , {   \"file_name\": \"/usr/share/ruby/vendor_ruby/will_crash.rb\"\n        ,   \"file_line\": 30\n        ,   \"special_function\": \"class:WillClass\"\n        ,   \"block_level\": 1\n        }\n      , {   \"file_name\": \"/usr/share/ruby/vendor_ruby/will_crash.rb\"\n        ,   \"file_line\": 28\n        ,   \"function_name\": \"times\"\n        }\n      , {   \"file_name\": \"/usr/share/ruby/vendor_ruby/will_crash.rb\"\n        ,   \"file_line\": 28\n        ,   \"special_function\": \"class:WillClass\"\n        ,   \"rescue_level\": 3\n        }\n      , {   \"file_name\": \"/usr/share/ruby/vendor_ruby/will_crash.rb\"\n        ,   \"file_line\": 25\n        ,   \"special_function\": \"class:WillClass\"\n        ,   \"rescue_level\": 2\n        }\n      , {   \"file_name\": \"/usr/share/ruby/vendor_ruby/will_crash.rb\"\n        ,   \"file_line\": 22\n        ,   \"special_function\": \"class:WillClass\"\n        ,   \"rescue_level\": 1\n        }\n      , {   \"file_name\": \"/usr/share/ruby/vendor_ruby/will_crash.rb\"\n        ,   \"file_line\": 19\n        ,   \"special_function\": \"class:WillClass\"\n        }\n      , {   \"file_name\": \"/usr/share/ruby/vendor_ruby/will_crash.rb\"\n        ,   \"file_line\": 6\n        ,   \"special_function\": \"top (required)\"\n        }\n      , {   \"file_name\": \"/usr/share/rubygems/rubygems/core_ext/kernel_require.rb\"\n        ,   \"file_line\": 55\n        ,   \"function_name\": \"require\"\n        }\n      , {   \"file_name\": \"/usr/share/rubygems/rubygems/core_ext/kernel_require.rb\"\n        ,   \"file_line\": 55\n        ,   \"function_name\": \"require\"\n        }\n      , {   \"file_name\": \"/usr/bin/will_ruby_raise\"\n        ,   \"file_line\": 11\n        ,   \"special_function\": \"module:WillModule\"\n        ,   \"block_level\": 2\n        }\n      , {   \"file_name\": \"/usr/bin/will_ruby_raise\"\n        ,   \"file_line\": 10\n        ,   \"function_name\": \"times\"\n        }\n      , {   \"file_name\": \"/usr/bin/will_ruby_raise\"\n        ,   \"file_line\": 10\n        ,   \"special_function\": \"module:WillModule\"\n        ,   \"block_level\": 1\n        }\n      , {   \"file_name\": \"/usr/bin/will_ruby_raise\"\n        ,   \"file_line\": 9\n        ,   \"function_name\": \"times\"\n        }\n      , {   \"file_name\": \"/usr/bin/will_ruby_raise\"\n        ,   \"file_line\": 9\n        ,   \"special_function\": \"module:WillModule\"\n        }\n      , {   \"file_name\": \"/usr/bin/will_ruby_raise\"\n        ,   \"file_line\": 8\n        ,   \"special_function\": \"main\"\n        } ]\n}"

-- tests/ruby_stacktrace.c:8-133, 177-193, 195-230
example : whole (Text.Ruby.parse ruby03) (fun t => t.exceptionName = some c!"RuntimeError" && t.frames.length == 4) = true := by decide +kernel
example : whole (Text.Ruby.parse ruby03) (fun t => Json.Ruby.toJson t == ruby03Json) = true := by decide +kernel
example : whole (Text.Ruby.parse ruby03) (fun t => Report.rubyReason t == .ok
    c!"RuntimeError in /usr/share/gems/gems/openshift-origin-node-1.18.0.1/lib/openshift-origin-node/utils/tc.rb:103") = true := by
  decide +kernel
example : whole (Text.Ruby.parse ruby01) (fun t => t.exceptionName = some c!"Wrap::MyException" && t.frames.length == 21 &&
    t.frames.take 2 == [rescueFrame, { rescueFrame with fileLine := 10, rescueLevel := 0 }] && Json.Ruby.toJson t == ruby01Json) = true := by
  decide +kernel

/-! ## tests/js_frame.c -/

-- tests/js_frame.c:84-89
example : Text.Js.parseFrameL c!"    at ContextifyScript.Script.runInThisContext (vm.js:25:33)" Loc.init =
    .ok (some (⟨some c!"vm.js", 25, 33, some c!"ContextifyScript.Script.runInThisContext"⟩, []), ⟨1, 61⟩) := by decide +kernel
-- tests/js_frame.c:91-96
example : Text.Js.parseFrameL c!"at    ContextifyScript.Script.runInThisContext    (vm.js:25:33)" Loc.init =
    .ok (some (⟨some c!"vm.js", 25, 33, some c!"ContextifyScript.Script.runInThisContext"⟩, []), ⟨1, 63⟩) := by decide +kernel
-- tests/js_frame.c:98-103
example : Text.Js.parseFrameL c!"at    ContextifyScript.Script.runInThisContext    (/home/user/vm.js:25:33)" Loc.init =
    .ok (some (⟨some c!"/home/anonymized/vm.js", 25, 33, some c!"ContextifyScript.Script.runInThisContext"⟩, []), ⟨1, 74⟩) := by decide +kernel
-- tests/js_frame.c:105-110
example : Text.Js.parseFrameL c!"at    ContextifyScript.Script.runInThisContext    (vm.js:25:33)  " Loc.init =
    .ok (some (⟨some c!"vm.js", 25, 33, some c!"ContextifyScript.Script.runInThisContext"⟩, []), ⟨1, 65⟩) := by decide +kernel
-- tests/js_frame.c:112-117
example : Text.Js.parseFrameL c!"    at PipeConnectWrap.afterConnect [as oncomplete] (net.js:1068:10)" Loc.init =
    .ok (some (⟨some c!"net.js", 1068, 10, some c!"PipeConnectWrap.afterConnect"⟩, []), ⟨1, 68⟩) := by decide +kernel
-- tests/js_frame.c:119-124
example : Text.Js.parseFrameL c!"    at bootstrap_node.js:357:29" Loc.init =
    .ok (some (⟨some c!"bootstrap_node.js", 357, 29, none⟩, []), ⟨1, 31⟩) := by decide +kernel
-- tests/js_frame.c:126-131
example : Text.Js.parseFrameL c!"at    bootstrap_node.js:357:29" Loc.init =
    .ok (some (⟨some c!"bootstrap_node.js", 357, 29, none⟩, []), ⟨1, 30⟩) := by decide +kernel
-- tests/js_frame.c:133-138
example : Text.Js.parseFrameL c!"at    bootstrap_node.js:357:29  " Loc.init =
    .ok (some (⟨some c!"bootstrap_node.js", 357, 29, none⟩, []), ⟨1, 32⟩) := by decide +kernel
-- tests/js_frame.c:140-145
example : Text.Js.parseFrameL c!"    at (b[c]d):e.js:2:1" Loc.init =
    .ok (some (⟨some c!"(b[c]d):e.js", 2, 1, none⟩, []), ⟨1, 23⟩) := by decide +kernel
-- tests/js_frame.c:147-152
example : Text.Js.parseFrameL c!"at _combinedTickCallback (a(b[c]d):e.js:67:7)" Loc.init =
    .ok (some (⟨some c!"a(b[c]d):e.js", 67, 7, some c!"_combinedTickCallback"⟩, []), ⟨1, 45⟩) := by decide +kernel
-- tests/js_frame.c:154-157
example : Text.Js.parseFrameL c!"    at ContextifyScript.Script.runInThisContext (vm.js:25:foo)" Loc.init = .ok (none, ⟨1, 61⟩) := by decide +kernel
-- tests/js_frame.c:159-162
example : Text.Js.parseFrameL c!"    at ContextifyScript.Script.runInThisContext (vm.js:25:33) at" Loc.init = .ok (none, ⟨1, 64⟩) := by decide +kernel
-- tests/js_frame.c:164-167
example : Text.Js.parseFrameL c!"    at ContextifyScript.Script.runInThisContext (vm.js:foo:33)" Loc.init = .ok (none, ⟨1, 58⟩) := by decide +kernel
-- tests/js_frame.c:169-172
example : Text.Js.parseFrameL c!" bootstrap_node.js:357:29" Loc.init = .ok (none, ⟨1, 1⟩) := by decide +kernel
-- tests/js_frame.c:174-177
example : Text.Js.parseFrameL c!"at bootstrap_node.js:357:29)" Loc.init = .ok (none, ⟨1, 3⟩) := by decide +kernel
-- tests/js_frame.c:179-182
example : Text.Js.parseFrameL c!"at bootstrap_node.js:357:29 )" Loc.init = .ok (none, ⟨1, 27⟩) := by decide +kernel
-- tests/js_frame.c:184-187
example : Text.Js.parseFrameL c!" at Foo (1234)" Loc.init = .ok (none, ⟨1, 9⟩) := by decide +kernel
-- tests/js_frame.c:189-192
example : Text.Js.parseFrameL c!" at vm.js:25:" Loc.init = .ok (none, ⟨1, 13⟩) := by decide +kernel
-- tests/js_frame.c:194-197
example : Text.Js.parseFrameL c!" at Foo (1234:25)" Loc.init = .ok (none, ⟨1, 9⟩) := by decide +kernel
-- tests/js_frame.c:199-202
example : Text.Js.parseFrameL c!" at vm.js::25" Loc.init = .ok (none, ⟨1, 10⟩) := by decide +kernel

def tick : JsFrame := ⟨some c!"internal/process/next_tick.js", 98, 9, some c!"process._tickCallback"⟩

-- tests/js_frame.c:205-253
example : jsCmp tick tick = 0 ∧ jsCmp tick { tick with fileLine := 9000 } ≠ 0 ∧ jsCmp tick { tick with lineColumn := 8000 } ≠ 0 ∧
    jsCmp tick { tick with functionName := none } ≠ 0 ∧ jsCmp tick { tick with functionName := some c!"foo_blah" } ≠ 0 ∧
    jsCmp tick { tick with fileName := none } ≠ 0 ∧ jsCmp tick { tick with fileName := some c!"blah_foo" } ≠ 0 := by decide +kernel
-- tests/js_frame.c:255-303
example : jsCmpDistance tick tick = 0 ∧ jsCmpDistance tick { tick with fileLine := 9000 } ≠ 0 ∧
    jsCmpDistance tick { tick with lineColumn := 8000 } = 0 ∧ jsCmpDistance tick { tick with functionName := none } ≠ 0 ∧
    jsCmpDistance tick { tick with functionName := some c!"foo_blah" } ≠ 0 ∧ jsCmpDistance tick { tick with fileName := none } ≠ 0 ∧
    jsCmpDistance tick { tick with fileName := some c!"blah_foo" } ≠ 0 := by decide +kernel
-- tests/js_frame.c:341-366, 398-419
example : whole (Text.Js.parseFrame c!"at process._tickCallback (internal/process/next_tick.js:98:9)") (· == tick) = true := by decide +kernel
example : Json.Js.frameToJson tick =
    c!"{   \"file_name\": \"internal/process/next_tick.js\"\n,   \"file_line\": 98\n,   \"line_column\": 9\n,   \"function_name\": \"process._tickCallback\"\n}" := by
  decide +kernel
example : Text.Js.printFrame tick = .ok c!"at process._tickCallback (internal/process/next_tick.js:98:9)" := by decide +kernel

/-! ## tests/js_stacktrace.c -/

/-- tests/js_stacktraces/node-01 -/
def node01 : Str := c!"ReferenceError: nonexistentFunc is not defined\n    at Object.<anonymous> (/tmp/index.js:2:1)\n    at Module._compile (module.js:556:32)\n    at Object.Module._extensions..js (module.js:565:10)\n    at Module.load (module.js:473:32)\n    at tryModuleLoad (module.js:432:12)\n    at Function.Module._load (module.js:424:3)\n    at Module.runMain (module.js:590:10)\n    at run (bootstrap_node.js:394:7)\n    at startup (bootstrap_node.js:149:9)\n    at bootstrap_node.js:509:3\n"
/-- tests/js_stacktraces/node-01-expected-json without the last line feed -/
def node01Json : Str := c!"{   \"exception_name\": \"ReferenceError\"\n,   \"stacktrace\":\n      [ {   \"file_name\": \"/tmp/index.js\"\n        ,   \"file_line\": 2\n        ,   \"line_column\": 1\n        ,   \"function_name\": \"Object.<anonymous>\"\n        }\n      , {   \"file_name\": \"module.js\"\n        ,   \"file_line\": 556\n        ,   \"line_column\": 32\n        ,   \"function_name\": \"Module._compile\"\n        }\n      , {   \"file_name\": \"module.js\"\n        ,   \"file_line\": 565\n        ,   \"line_column\": 10\n        ,   \"function_name\": \"Object.Module._extensions..js\"\n        }\n      , {   \"file_name\": \"module.js\"\n        ,   \"file_line\": 473\n        ,   \"line_column\": 32\n        ,   \"function_name\": \"Module.load\"\n        }\n      , {   \"file_name\": \"module.js\"\n        ,   \"file_line\": 432\n        ,   \"line_column\": 12\n        ,   \"function_name\": \"tryModuleLoad\"\n        }\n      , {   \"file_name\": \"module.js\"\n        ,   \"file_line\": 424\n        ,   \"line_column\": 3\n        ,   \"function_name\": \"Function.Module._load\"\n        }\n      , {   \"file_name\": \"module.js\"\n        ,   \"file_line\": 590\n        ,   \"line_column\": 10\n        ,   \"function_name\": \"Module.runMain\"\n        }\n      , {   \"file_name\": \"bootstrap_node.js\"\n        ,   \"file_line\": 394\n        ,   \"line_column\": 7\n        ,   \"function_name\": \"run\"\n        }\n      , {   \"file_name\": \"bootstrap_node.js\"\n        ,   \"file_line\": 149\n        ,   \"line_column\": 9\n        ,   \"function_name\": \"startup\"\n        }\n      , {   \"file_name\": \"bootstrap_node.js\"\n        ,   \"file_line\": 509\n        ,   \"line_column\": 3\n        } ]\n,   \"platform\":\n        {    \"engine\": \"V8\"\n        ,    \"runtime\": \"<unknown>\"\n        }\n}"
/-- tests/js_stacktraces/node-02 -/
def node02 : Str := c!"TypeError: Cannot read property 'message' of undefined\n    at Socket.<anonymous> (/tmp/index.js:16:35)\n    at Socket.g (events.js:286:16)\n    at emitNone (events.js:86:13)\n    at Socket.emit (events.js:185:7)\n    at PipeConnectWrap.afterConnect [as oncomplete] (net.js:1068:10)\n"
/-- tests/js_stacktraces/node-02-expected-json without the last line feed -/
def node02Json : Str := c!"{   \"exception_name\": \"TypeError\"\n,   \"stacktrace\":\n      [ {   \"file_name\": \"/tmp/index.js\"\n        ,   \"file_line\": 16\n        ,   \"line_column\": 35\n        ,   \"function_name\": \"Socket.<anonymous>\"\n        }\n      , {   \"file_name\": \"events.js\"\n        ,   \"file_line\": 286\n        ,   \"line_column\": 16\n        ,   \"function_name\": \"Socket.g\"\n        }\n      , {   \"file_name\": \"events.js\"\n        ,   \"file_line\": 86\n        ,   \"line_column\": 13\n        ,   \"function_name\": \"emitNone\"\n        }\n      , {   \"file_name\": \"events.js\"\n        ,   \"file_line\": 185\n        ,   \"line_column\": 7\n        ,   \"function_name\": \"Socket.emit\"\n        }\n      , {   \"file_name\": \"net.js\"\n        ,   \"file_line\": 1068\n        ,   \"line_column\": 10\n        ,   \"function_name\": \"PipeConnectWrap.afterConnect\"\n        } ]\n,   \"platform\":\n        {    \"engine\": \"V8\"\n        ,    \"runtime\": \"<unknown>\"\n        }\n}"

-- tests/js_stacktrace.c:109-188, 242-273, 275-330
example : whole (Text.Js.parseTrace node01) (fun t => t.exceptionName = some c!"ReferenceError" && t.frames.length == 10 &&
    t.frames.take 2 == [⟨some c!"/tmp/index.js", 2, 1, some c!"Object.<anonymous>"⟩, ⟨some c!"module.js", 556, 32, some c!"Module._compile"⟩] &&
    t.frames.drop 9 == [⟨some c!"bootstrap_node.js", 509, 3, none⟩] &&
    Report.jsReason t == .ok c!"ReferenceError at /tmp/index.js:2:1") = true := by decide +kernel
example : whole (Text.Js.parseTrace node01) (fun t => Json.Js.toJson t == node01Json) = true := by decide +kernel
example : whole (Text.Js.parseTrace node02) (fun t => t.exceptionName = some c!"TypeError" && t.frames.length == 5 &&
    t.frames.take 2 == [⟨some c!"/tmp/index.js", 16, 35, some c!"Socket.<anonymous>"⟩, ⟨some c!"events.js", 286, 16, some c!"Socket.g"⟩] &&
    t.frames.drop 4 == [⟨some c!"net.js", 1068, 10, some c!"PipeConnectWrap.afterConnect"⟩]) = true := by decide +kernel
example : whole (Text.Js.parseTrace node02) (fun t => Json.Js.toJson t == node02Json) = true := by decide +kernel
-- tests/js_stacktrace.c:268-272
example : Report.jsReason {} = .ok c!"Error at <unknown>:0:0" := by decide +kernel
-- tests/js_stacktrace.c:162-167
example : Text.Js.parseTraceL c!"nonexistentFunc is not defined\n    at Object.<anonymous> (/tmp/index.js:2:1))" Loc.init = .ok (none, ⟨1, 0⟩) := by decide +kernel
-- tests/js_stacktrace.c:169-174
example : Text.Js.parseTraceL c!": nonexistentFunc is not defined\n    at Object.<anonymous> (/tmp/index.js:2:1))" Loc.init = .ok (none, ⟨1, 0⟩) := by decide +kernel
-- tests/js_stacktrace.c:176-181
example : Text.Js.parseTraceL c!"ReferenceError:\n    at Object.<anonymous> (/tmp/index.js:2:1))" Loc.init = .ok (none, ⟨1, 1⟩) := by decide +kernel
-- tests/js_stacktrace.c:183-187
example : Text.Js.parseTraceL c!"ReferenceError: nonexistentFunc is not defined" Loc.init = .ok (none, ⟨1, 31⟩) := by decide +kernel

end Satyr.Conformance.Script
