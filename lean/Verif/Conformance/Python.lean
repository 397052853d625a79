import Verif.Text.PythonModel
import Verif.Text.RubyModel
import Verif.Generic.Model
import Verif.Json.ScriptModel
/-!
# The unit tests of Python stack traces and of JSON documents, run on the model

Inputs and expected results are those of tests/python/*.py, tests/python_stacktraces and tests/ruby_stacktraces, which the C functions pass.
The examples do not prove anything for all inputs; they are evidence that the model is a model of the code.
-/
namespace Satyr.Conformance.Python
open Satyr.CStr Satyr.Frames

set_option maxRecDepth 40000
set_option synthInstance.maxSize 1000
set_option synthInstance.maxHeartbeats 100000

/-! ## Texts of Python stack traces -/

/-- The stack trace of a result. -/
def trace {α : Type} : Out (Option (α × Str)) → Option α
  | .ok (some r) => some r.1
  | _ => none

/-! python-01: 11 frames, the ones of the short text (tests/python/python.py:8-16) and the last one (tests/python/python.py:200-233) -/

example : trace (Text.Python.parse c!"Traceback (most recent call last):\n  File \"/usr/share/PackageKit/helpers/yum/yumBackend.py\", line 1830, in _runYumTransaction\n    rpmDisplay=rpmDisplay)\n  File \"/usr/lib/python2.6/site-packages/yum/__init__.py\", line 3494, in processTransaction\n    pkgs = self._downloadPackages(callback)\n  File \"/usr/lib/python2.6/site-packages/yum/__init__.py\", line 3518, in _downloadPackages\n    probs = self.downloadPkgs(dlpkgs)\n  File \"/usr/lib/python2.6/site-packages/yum/__init__.py\", line 1275, in downloadPkgs\n    self.plugins.run('predownload', pkglist=pkglist)\n  File \"/usr/lib/python2.6/site-packages/yum/plugins.py\", line 179, in run\n    func(conduitcls(self, self.base, conf, **kwargs))\n  File \"/usr/lib/yum-plugins/presto.py\", line 577, in predownload_hook\n    (problems, more) = downloadPkgs(conduit, pinfo, download_pkgs)\n  File \"/usr/lib/yum-plugins/presto.py\", line 419, in downloadPkgs\n    cb.start(text=\"<delta rebuild>\", size=rebuild_size)\n  File \"/usr/lib/python2.6/site-packages/urlgrabber/progress.py\", line 129, in start\n    self._do_start(now)\n  File \"/usr/share/PackageKit/helpers/yum/yumBackend.py\", line 2551, in _do_start\n    self.updateProgress(name, 0.0, \"\", \"\")\n  File \"/usr/share/PackageKit/helpers/yum/yumBackend.py\", line 2593, in updateProgress\n    pkg = self._getPackage(name)\n  File \"/home/user/PackageKit/helpers/yum/yumBackend.py\", line 2534, in _getPackage\n    sections = name.rsplit('-', 2)\nAttributeError: 'NoneType' object has no attribute 'rsplit'\n") = some
    { exceptionName := some c!"AttributeError", frames := [
      { fileName := some c!"/home/anonymized/PackageKit/helpers/yum/yumBackend.py", fileLine := 2534, functionName := some c!"_getPackage", lineContents := some c!"sections = name.rsplit('-', 2)" },
      { fileName := some c!"/usr/share/PackageKit/helpers/yum/yumBackend.py", fileLine := 2593, functionName := some c!"updateProgress", lineContents := some c!"pkg = self._getPackage(name)" },
      { fileName := some c!"/usr/share/PackageKit/helpers/yum/yumBackend.py", fileLine := 2551, functionName := some c!"_do_start", lineContents := some c!"self.updateProgress(name, 0.0, \"\", \"\")" },
      { fileName := some c!"/usr/lib/python2.6/site-packages/urlgrabber/progress.py", fileLine := 129, functionName := some c!"start", lineContents := some c!"self._do_start(now)" },
      { fileName := some c!"/usr/lib/yum-plugins/presto.py", fileLine := 419, functionName := some c!"downloadPkgs", lineContents := some c!"cb.start(text=\"<delta rebuild>\", size=rebuild_size)" },
      { fileName := some c!"/usr/lib/yum-plugins/presto.py", fileLine := 577, functionName := some c!"predownload_hook", lineContents := some c!"(problems, more) = downloadPkgs(conduit, pinfo, download_pkgs)" },
      { fileName := some c!"/usr/lib/python2.6/site-packages/yum/plugins.py", fileLine := 179, functionName := some c!"run", lineContents := some c!"func(conduitcls(self, self.base, conf, **kwargs))" },
      { fileName := some c!"/usr/lib/python2.6/site-packages/yum/__init__.py", fileLine := 1275, functionName := some c!"downloadPkgs", lineContents := some c!"self.plugins.run('predownload', pkglist=pkglist)" },
      { fileName := some c!"/usr/lib/python2.6/site-packages/yum/__init__.py", fileLine := 3518, functionName := some c!"_downloadPackages", lineContents := some c!"probs = self.downloadPkgs(dlpkgs)" },
      { fileName := some c!"/usr/lib/python2.6/site-packages/yum/__init__.py", fileLine := 3494, functionName := some c!"processTransaction", lineContents := some c!"pkgs = self._downloadPackages(callback)" },
      { fileName := some c!"/usr/share/PackageKit/helpers/yum/yumBackend.py", fileLine := 1830, functionName := some c!"_runYumTransaction", lineContents := some c!"rpmDisplay=rpmDisplay)" }] } := by
  decide +kernel

/-! `test_special_files_and_frames` (tests/python/python.py:47-73) -/

example : trace (Text.Python.parse c!"Traceback (most recent call last):\n  File \"<stdin>\", line 1, in <module>\n    l(42)\n  File \"./test.py\", line 6, in <lambda>\n    l = lambda x: [ f(x) for i in range(10) ]\n  File \"./test.py\", line 4, in f\n    eval(\"0/0\")\n  File \"<string>\", line 1, in <module>\nZeroDivisionError: integer division or modulo by zero\n") = some
    { exceptionName := some c!"ZeroDivisionError", frames := [
      { specialFile := true, fileName := some c!"string", fileLine := 1, specialFunction := true, functionName := some c!"module" },
      { fileName := some c!"./test.py", fileLine := 4, functionName := some c!"f", lineContents := some c!"eval(\"0/0\")" },
      { fileName := some c!"./test.py", fileLine := 6, specialFunction := true, functionName := some c!"lambda", lineContents := some c!"l = lambda x: [ f(x) for i in range(10) ]" },
      { specialFile := true, fileName := some c!"stdin", fileLine := 1, specialFunction := true, functionName := some c!"module", lineContents := some c!"l(42)" }] } := by
  decide +kernel

/-! `test_invalid_syntax_current_file` (tests/python/python.py:146-159) -/

example : trace (Text.Python.parse c!"invalid syntax (python3-mako-render, line 43)\n\n  File \"/usr/bin/python3-mako-render\", line 43\n    print render(data, kw)\n               ^\nSyntaxError: invalid syntax\n") = some
    { exceptionName := some c!"SyntaxError", frames := [
      { fileName := some c!"/usr/bin/python3-mako-render", fileLine := 43, specialFunction := true, functionName := some c!"syntax", lineContents := some c!"print render(data, kw)" }] } := by
  decide +kernel

/-! `test_invalid_syntax_imported_file` (tests/python/python.py:161-182) -/

example : trace (Text.Python.parse c!"will_python_raise:2:<module>:  File \"/usr/lib64/python2.7/site-packages/report/__init__.py\", line 15\n\nTraceback (most recent call last):\n  File \"/usr/bin/will_python_raise\", line 2, in <module>\n    import report\n  File \"/usr/lib64/python2.7/site-packages/report/__init__.py\", line 15\n    def foo(:\n            ^\nSyntaxError: invalid syntax\n\nLocal variables in innermost frame:\n__builtins__: <module '__builtin__' (built-in)>\n__name__: '__main__'\n__file__: '/usr/bin/will_python_raise'\n__doc__: None\n__package__: None\n") = some
    { exceptionName := some c!"SyntaxError", frames := [
      { fileName := some c!"/usr/lib64/python2.7/site-packages/report/__init__.py", fileLine := 15, specialFunction := true, functionName := some c!"syntax", lineContents := some c!"def foo(:" },
      { fileName := some c!"/usr/bin/will_python_raise", fileLine := 2, specialFunction := true, functionName := some c!"module", lineContents := some c!"import report" }] } := by
  decide +kernel

/-! `test_fine_grained_error_location` (tests/python/python.py:184-197) -/

example : trace (Text.Python.parse c!"will_python3_raise:3:<module>:ZeroDivisionError: division by zero\n\nTraceback (most recent call last):\n  File \"/usr/bin/will_python3_raise\", line 3, in <module>\n    0/0\n    ~^~\nZeroDivisionError: division by zero\n\nLocal variables in innermost frame:\n__name__: '__main__'\n__doc__: None\n__package__: None\n__loader__: <_frozen_importlib_external.SourceFileLoader object at 0x7fd295c62c50>\n__spec__: None\n__annotations__: {}\n__builtins__: <module 'builtins' (built-in)>\n__file__: '/usr/bin/will_python3_raise'\n__cached__: None\n") = some
    { exceptionName := some c!"ZeroDivisionError", frames := [
      { fileName := some c!"/usr/bin/will_python3_raise", fileLine := 3, specialFunction := true, functionName := some c!"module", lineContents := some c!"0/0" }] } := by
  decide +kernel

/-! ## Ruby stack traces and their JSON texts (tests/ruby_stacktrace.c; ruby-01 and ruby-03 are in `Script`) -/

example : (trace (Text.Ruby.parse c!"/usr/share/gems/gems/rdoc-4.1.1/lib/rdoc/class_module.rb:173:in `aref_prefix': missing aref_prefix for RDoc::SingleClass (NotImplementedError)\n\tfrom /usr/share/gems/gems/rdoc-4.1.1/lib/rdoc/class_module.rb:181:in `aref'\n\tfrom /usr/share/gems/gems/rdoc-4.1.1/lib/rdoc/generator/template/darkfish/class.rhtml:47:in `block in generate_class'\n\tfrom /usr/share/ruby/erb.rb:850:in `eval'\n\tfrom /usr/share/ruby/erb.rb:850:in `result'\n\tfrom /usr/share/gems/gems/rdoc-4.1.1/lib/rdoc/generator/darkfish.rb:724:in `template_result'\n\tfrom /usr/share/gems/gems/rdoc-4.1.1/lib/rdoc/generator/darkfish.rb:703:in `block in render_template'\n\tfrom /usr/share/gems/gems/rdoc-4.1.1/lib/rdoc/generator/darkfish.rb:698:in `open'\n\tfrom /usr/share/gems/gems/rdoc-4.1.1/lib/rdoc/generator/darkfish.rb:698:in `open'\n\tfrom /usr/share/gems/gems/rdoc-4.1.1/lib/rdoc/generator/darkfish.rb:698:in `render_template'\n\tfrom /usr/share/gems/gems/rdoc-4.1.1/lib/rdoc/generator/darkfish.rb:351:in `generate_class'\n\tfrom /usr/share/gems/gems/rdoc-4.1.1/lib/rdoc/generator/darkfish.rb:371:in `block in generate_class_files'\n\tfrom /usr/share/gems/gems/rdoc-4.1.1/lib/rdoc/generator/darkfish.rb:368:in `each'\n\tfrom /usr/share/gems/gems/rdoc-4.1.1/lib/rdoc/generator/darkfish.rb:368:in `generate_class_files'\n\tfrom /usr/share/gems/gems/rdoc-4.1.1/lib/rdoc/generator/darkfish.rb:245:in `generate'\n\tfrom /usr/share/gems/gems/rdoc-4.1.1/lib/rdoc/rubygems_hook.rb:137:in `block in document'\n\tfrom /usr/share/gems/gems/rdoc-4.1.1/lib/rdoc/rubygems_hook.rb:134:in `chdir'\n\tfrom /usr/share/gems/gems/rdoc-4.1.1/lib/rdoc/rubygems_hook.rb:134:in `document'\n\tfrom /usr/share/gems/gems/rdoc-4.1.1/lib/rdoc/rubygems_hook.rb:202:in `generate'\n\tfrom /usr/share/gems/gems/rdoc-4.1.1/lib/rdoc/rubygems_hook.rb:56:in `block in generation_hook'\n\tfrom /usr/share/gems/gems/rdoc-4.1.1/lib/rdoc/rubygems_hook.rb:55:in `each'\n\tfrom /usr/share/gems/gems/rdoc-4.1.1/lib/rdoc/rubygems_hook.rb:55:in `generation_hook'\n\tfrom /usr/local/share/ruby/site_ruby/rubygems/request_set.rb:188:in `call'\n\tfrom /usr/local/share/ruby/site_ruby/rubygems/request_set.rb:188:in `block in install'\n\tfrom /usr/local/share/ruby/site_ruby/rubygems/request_set.rb:187:in `each'\n\tfrom /usr/local/share/ruby/site_ruby/rubygems/request_set.rb:187:in `install'\n\tfrom /usr/local/share/ruby/site_ruby/rubygems/dependency_installer.rb:394:in `install'\n\tfrom /usr/local/share/ruby/site_ruby/rubygems/commands/update_command.rb:211:in `update_gem'\n\tfrom /usr/local/share/ruby/site_ruby/rubygems/commands/update_command.rb:223:in `block in update_gems'\n\tfrom /usr/local/share/ruby/site_ruby/rubygems/commands/update_command.rb:222:in `each'\n\tfrom /usr/local/share/ruby/site_ruby/rubygems/commands/update_command.rb:222:in `update_gems'\n\tfrom /usr/local/share/ruby/site_ruby/rubygems/commands/update_command.rb:98:in `execute'\n\tfrom /usr/local/share/ruby/site_ruby/rubygems/command.rb:307:in `invoke_with_build_args'\n\tfrom /usr/local/share/ruby/site_ruby/rubygems/command_manager.rb:168:in `process_args'\n\tfrom /usr/local/share/ruby/site_ruby/rubygems/command_manager.rb:138:in `run'\n\tfrom /usr/local/share/ruby/site_ruby/rubygems/gem_runner.rb:54:in `run'\n\tfrom /bin/gem:21:in `<main>'")).map Json.Ruby.toJson = some
    c!"{   \"exception_name\": \"NotImplementedError\"\n,   \"stacktrace\":\n      [ {   \"file_name\": \"/usr/share/gems/gems/rdoc-4.1.1/lib/rdoc/class_module.rb\"\n        ,   \"file_line\": 173\n        ,   \"function_name\": \"aref_prefix\"\n        }\n      , {   \"file_name\": \"/usr/share/gems/gems/rdoc-4.1.1/lib/rdoc/class_module.rb\"\n        ,   \"file_line\": 181\n        ,   \"function_name\": \"aref\"\n        }\n      , {   \"file_name\": \"/usr/share/gems/gems/rdoc-4.1.1/lib/rdoc/generator/template/darkfish/class.rhtml\"\n        ,   \"file_line\": 47\n        ,   \"function_name\": \"generate_class\"\n        ,   \"block_level\": 1\n        }\n      , {   \"file_name\": \"/usr/share/ruby/erb.rb\"\n        ,   \"file_line\": 850\n        ,   \"function_name\": \"eval\"\n        }\n      , {   \"file_name\": \"/usr/share/ruby/erb.rb\"\n        ,   \"file_line\": 850\n        ,   \"function_name\": \"result\"\n        }\n      , {   \"file_name\": \"/usr/share/gems/gems/rdoc-4.1.1/lib/rdoc/generator/darkfish.rb\"\n        ,   \"file_line\": 724\n        ,   \"function_name\": \"template_result\"\n        }\n      , {   \"file_name\": \"/usr/share/gems/gems/rdoc-4.1.1/lib/rdoc/generator/darkfish.rb\"\n        ,   \"file_line\": 703\n        ,   \"function_name\": \"render_template\"\n        ,   \"block_level\": 1\n        }\n      , {   \"file_name\": \"/usr/share/gems/gems/rdoc-4.1.1/lib/rdoc/generator/darkfish.rb\"\n        ,   \"file_line\": 698\n        ,   \"function_name\": \"open\"\n        }\n      , {   \"file_name\": \"/usr/share/gems/gems/rdoc-4.1.1/lib/rdoc/generator/darkfish.rb\"\n        ,   \"file_line\": 698\n        ,   \"function_name\": \"open\"\n        }\n      , {   \"file_name\": \"/usr/share/gems/gems/rdoc-4.1.1/lib/rdoc/generator/darkfish.rb\"\n        ,   \"file_line\": 698\n        ,   \"function_name\": \"render_template\"\n        }\n      , {   \"file_name\": \"/usr/share/gems/gems/rdoc-4.1.1/lib/rdoc/generator/darkfish.rb\"\n        ,   \"file_line\": 351\n        ,   \"function_name\": \"generate_class\"\n        }\n      , {   \"file_name\": \"/usr/share/gems/gems/rdoc-4.1.1/lib/rdoc/generator/darkfish.rb\"\n        ,   \"file_line\": 371\n        ,   \"function_name\": \"generate_class_files\"\n        ,   \"block_level\": 1\n        }\n      , {   \"file_name\": \"/usr/share/gems/gems/rdoc-4.1.1/lib/rdoc/generator/darkfish.rb\"\n        ,   \"file_line\": 368\n        ,   \"function_name\": \"each\"\n        }\n      , {   \"file_name\": \"/usr/share/gems/gems/rdoc-4.1.1/lib/rdoc/generator/darkfish.rb\"\n        ,   \"file_line\": 368\n        ,   \"function_name\": \"generate_class_files\"\n        }\n      , {   \"file_name\": \"/usr/share/gems/gems/rdoc-4.1.1/lib/rdoc/generator/darkfish.rb\"\n        ,   \"file_line\": 245\n        ,   \"function_name\": \"generate\"\n        }\n      , {   \"file_name\": \"/usr/share/gems/gems/rdoc-4.1.1/lib/rdoc/rubygems_hook.rb\"\n        ,   \"file_line\": 137\n        ,   \"function_name\": \"document\"\n        ,   \"block_level\": 1\n        }\n      , {   \"file_name\": \"/usr/share/gems/gems/rdoc-4.1.1/lib/rdoc/rubygems_hook.rb\"\n        ,   \"file_line\": 134\n        ,   \"function_name\": \"chdir\"\n        }\n      , {   \"file_name\": \"/usr/share/gems/gems/rdoc-4.1.1/lib/rdoc/rubygems_hook.rb\"\n        ,   \"file_line\": 134\n        ,   \"function_name\": \"document\"\n        }\n      , {   \"file_name\": \"/usr/share/gems/gems/rdoc-4.1.1/lib/rdoc/rubygems_hook.rb\"\n        ,   \"file_line\": 202\n        ,   \"function_name\": \"generate\"\n        }\n      , {   \"file_name\": \"/usr/share/gems/gems/rdoc-4.1.1/lib/rdoc/rubygems_hook.rb\"\n        ,   \"file_line\": 56\n        ,   \"function_name\": \"generation_hook\"\n        ,   \"block_level\": 1\n        }\n      , {   \"file_name\": \"/usr/share/gems/gems/rdoc-4.1.1/lib/rdoc/rubygems_hook.rb\"\n        ,   \"file_line\": 55\n        ,   \"function_name\": \"each\"\n        }\n      , {   \"file_name\": \"/usr/share/gems/gems/rdoc-4.1.1/lib/rdoc/rubygems_hook.rb\"\n        ,   \"file_line\": 55\n        ,   \"function_name\": \"generation_hook\"\n        }\n      , {   \"file_name\": \"/usr/local/share/ruby/site_ruby/rubygems/request_set.rb\"\n        ,   \"file_line\": 188\n        ,   \"function_name\": \"call\"\n        }\n      , {   \"file_name\": \"/usr/local/share/ruby/site_ruby/rubygems/request_set.rb\"\n        ,   \"file_line\": 188\n        ,   \"function_name\": \"install\"\n        ,   \"block_level\": 1\n        }\n      , {   \"file_name\": \"/usr/local/share/ruby/site_ruby/rubygems/request_set.rb\"\n        ,   \"file_line\": 187\n        ,   \"function_name\": \"each\"\n        }\n      , {   \"file_name\": \"/usr/local/share/ruby/site_ruby/rubygems/request_set.rb\"\n        ,   \"file_line\": 187\n        ,   \"function_name\": \"install\"\n        }\n      , {   \"file_name\": \"/usr/local/share/ruby/site_ruby/rubygems/dependency_installer.rb\"\n        ,   \"file_line\": 394\n        ,   \"function_name\": \"install\"\n        }\n      , {   \"file_name\": \"/usr/local/share/ruby/site_ruby/rubygems/commands/update_command.rb\"\n        ,   \"file_line\": 211\n        ,   \"function_name\": \"update_gem\"\n        }\n      , {   \"file_name\": \"/usr/local/share/ruby/site_ruby/rubygems/commands/update_command.rb\"\n        ,   \"file_line\": 223\n        ,   \"function_name\": \"update_gems\"\n        ,   \"block_level\": 1\n        }\n      , {   \"file_name\": \"/usr/local/share/ruby/site_ruby/rubygems/commands/update_command.rb\"\n        ,   \"file_line\": 222\n        ,   \"function_name\": \"each\"\n        }\n      , {   \"file_name\": \"/usr/local/share/ruby/site_ruby/rubygems/commands/update_command.rb\"\n        ,   \"file_line\": 222\n        ,   \"function_name\": \"update_gems\"\n        }\n      , {   \"file_name\": \"/usr/local/share/ruby/site_ruby/rubygems/commands/update_command.rb\"\n        ,   \"file_line\": 98\n        ,   \"function_name\": \"execute\"\n        }\n      , {   \"file_name\": \"/usr/local/share/ruby/site_ruby/rubygems/command.rb\"\n        ,   \"file_line\": 307\n        ,   \"function_name\": \"invoke_with_build_args\"\n        }\n      , {   \"file_name\": \"/usr/local/share/ruby/site_ruby/rubygems/command_manager.rb\"\n        ,   \"file_line\": 168\n        ,   \"function_name\": \"process_args\"\n        }\n      , {   \"file_name\": \"/usr/local/share/ruby/site_ruby/rubygems/command_manager.rb\"\n        ,   \"file_line\": 138\n        ,   \"function_name\": \"run\"\n        }\n      , {   \"file_name\": \"/usr/local/share/ruby/site_ruby/rubygems/gem_runner.rb\"\n        ,   \"file_line\": 54\n        ,   \"function_name\": \"run\"\n        }\n      , {   \"file_name\": \"/bin/gem\"\n        ,   \"file_line\": 21\n        ,   \"special_function\": \"main\"\n        } ]\n}" := by
  decide +kernel

example : (trace (Text.Ruby.parse c!"/usr/share/rubygems/rubygems/basic_specification.rb:50:in `block (3 levels) in contains_requirable_file?': SIGTERM (SignalException)\n\tfrom /usr/share/rubygems/rubygems/basic_specification.rb:50:in `each'\n\tfrom /usr/share/rubygems/rubygems/basic_specification.rb:50:in `any?'\n\tfrom /usr/share/rubygems/rubygems/basic_specification.rb:50:in `block (2 levels) in contains_requirable_file?'\n\tfrom /usr/share/rubygems/rubygems/basic_specification.rb:49:in `each'\n\tfrom /usr/share/rubygems/rubygems/basic_specification.rb:49:in `any?'\n\tfrom /usr/share/rubygems/rubygems/basic_specification.rb:49:in `block in contains_requirable_file?'\n\tfrom /usr/share/rubygems/rubygems/basic_specification.rb:45:in `each'\n\tfrom /usr/share/rubygems/rubygems/basic_specification.rb:45:in `any?'\n\tfrom /usr/share/rubygems/rubygems/basic_specification.rb:45:in `contains_requirable_file?'\n\tfrom /usr/share/rubygems/rubygems/specification.rb:898:in `block in find_inactive_by_path'\n\tfrom /usr/share/rubygems/rubygems/specification.rb:897:in `each'\n\tfrom /usr/share/rubygems/rubygems/specification.rb:897:in `find'\n\tfrom /usr/share/rubygems/rubygems/specification.rb:897:in `find_inactive_by_path'\n\tfrom /usr/share/rubygems/rubygems.rb:183:in `try_activate'\n\tfrom /usr/share/rubygems/rubygems/core_ext/kernel_require.rb:132:in `rescue in require'\n\tfrom /usr/share/rubygems/rubygems/core_ext/kernel_require.rb:144:in `require'\n\tfrom /usr/share/gems/gems/compass-0.12.2/lib/compass/sass_extensions/sprites/engines/chunky_png_engine.rb:2:in `<top (required)>'\n\tfrom /usr/share/rubygems/rubygems/core_ext/kernel_require.rb:55:in `require'\n\tfrom /usr/share/rubygems/rubygems/core_ext/kernel_require.rb:55:in `require'\n\tfrom /usr/share/gems/gems/compass-0.12.2/lib/compass/sass_extensions/sprites/engines.rb:25:in `<top (required)>'\n\tfrom /usr/share/rubygems/rubygems/core_ext/kernel_require.rb:55:in `require'\n\tfrom /usr/share/rubygems/rubygems/core_ext/kernel_require.rb:55:in `require'\n\tfrom /usr/share/gems/gems/compass-0.12.2/lib/compass/sass_extensions/sprites.rb:18:in `<top (required)>'\n\tfrom /usr/share/rubygems/rubygems/core_ext/kernel_require.rb:55:in `require'\n\tfrom /usr/share/rubygems/rubygems/core_ext/kernel_require.rb:55:in `require'\n\tfrom /usr/share/gems/gems/compass-0.12.2/lib/compass/sass_extensions.rb:10:in `<top (required)>'\n\tfrom /usr/share/rubygems/rubygems/core_ext/kernel_require.rb:55:in `require'\n\tfrom /usr/share/rubygems/rubygems/core_ext/kernel_require.rb:55:in `require'\n\tfrom /usr/share/gems/gems/compass-0.12.2/lib/compass.rb:5:in `block in <top (required)>'\n\tfrom /usr/share/gems/gems/compass-0.12.2/lib/compass.rb:4:in `each'\n\tfrom /usr/share/gems/gems/compass-0.12.2/lib/compass.rb:4:in `<top (required)>'\n\tfrom /usr/share/rubygems/rubygems/core_ext/kernel_require.rb:55:in `require'\n\tfrom /usr/share/rubygems/rubygems/core_ext/kernel_require.rb:55:in `require'\n\tfrom /usr/share/gems/gems/compass-0.12.2/bin/compass:20:in `block in <top (required)>'\n\tfrom /usr/share/gems/gems/compass-0.12.2/bin/compass:8:in `fallback_load_path'\n\tfrom /usr/share/gems/gems/compass-0.12.2/bin/compass:19:in `<top (required)>'\n\tfrom /usr/bin/compass:23:in `load'\n\tfrom /usr/bin/compass:23:in `<main>'")).map Json.Ruby.toJson = some
    c!"{   \"exception_name\": \"SignalException\"\n,   \"stacktrace\":\n      [ {   \"file_name\": \"/usr/share/rubygems/rubygems/basic_specification.rb\"\n        ,   \"file_line\": 50\n        ,   \"function_name\": \"contains_requirable_file?\"\n        ,   \"block_level\": 3\n        }\n      , {   \"file_name\": \"/usr/share/rubygems/rubygems/basic_specification.rb\"\n        ,   \"file_line\": 50\n        ,   \"function_name\": \"each\"\n        }\n      , {   \"file_name\": \"/usr/share/rubygems/rubygems/basic_specification.rb\"\n        ,   \"file_line\": 50\n        ,   \"function_name\": \"any?\"\n        }\n      , {   \"file_name\": \"/usr/share/rubygems/rubygems/basic_specification.rb\"\n        ,   \"file_line\": 50\n        ,   \"function_name\": \"contains_requirable_file?\"\n        ,   \"block_level\": 2\n        }\n      , {   \"file_name\": \"/usr/share/rubygems/rubygems/basic_specification.rb\"\n        ,   \"file_line\": 49\n        ,   \"function_name\": \"each\"\n        }\n      , {   \"file_name\": \"/usr/share/rubygems/rubygems/basic_specification.rb\"\n        ,   \"file_line\": 49\n        ,   \"function_name\": \"any?\"\n        }\n      , {   \"file_name\": \"/usr/share/rubygems/rubygems/basic_specification.rb\"\n        ,   \"file_line\": 49\n        ,   \"function_name\": \"contains_requirable_file?\"\n        ,   \"block_level\": 1\n        }\n      , {   \"file_name\": \"/usr/share/rubygems/rubygems/basic_specification.rb\"\n        ,   \"file_line\": 45\n        ,   \"function_name\": \"each\"\n        }\n      , {   \"file_name\": \"/usr/share/rubygems/rubygems/basic_specification.rb\"\n        ,   \"file_line\": 45\n        ,   \"function_name\": \"any?\"\n        }\n      , {   \"file_name\": \"/usr/share/rubygems/rubygems/basic_specification.rb\"\n        ,   \"file_line\": 45\n        ,   \"function_name\": \"contains_requirable_file?\"\n        }\n      , {   \"file_name\": \"/usr/share/rubygems/rubygems/specification.rb\"\n        ,   \"file_line\": 898\n        ,   \"function_name\": \"find_inactive_by_path\"\n        ,   \"block_level\": 1\n        }\n      , {   \"file_name\": \"/usr/share/rubygems/rubygems/specification.rb\"\n        ,   \"file_line\": 897\n        ,   \"function_name\": \"each\"\n        }\n      , {   \"file_name\": \"/usr/share/rubygems/rubygems/specification.rb\"\n        ,   \"file_line\": 897\n        ,   \"function_name\": \"find\"\n        }\n      , {   \"file_name\": \"/usr/share/rubygems/rubygems/specification.rb\"\n        ,   \"file_line\": 897\n        ,   \"function_name\": \"find_inactive_by_path\"\n        }\n      , {   \"file_name\": \"/usr/share/rubygems/rubygems.rb\"\n        ,   \"file_line\": 183\n        ,   \"function_name\": \"try_activate\"\n        }\n      , {   \"file_name\": \"/usr/share/rubygems/rubygems/core_ext/kernel_require.rb\"\n        ,   \"file_line\": 132\n        ,   \"function_name\": \"require\"\n        ,   \"rescue_level\": 1\n        }\n      , {   \"file_name\": \"/usr/share/rubygems/rubygems/core_ext/kernel_require.rb\"\n        ,   \"file_line\": 144\n        ,   \"function_name\": \"require\"\n        }\n      , {   \"file_name\": \"/usr/share/gems/gems/compass-0.12.2/lib/compass/sass_extensions/sprites/engines/chunky_png_engine.rb\"\n        ,   \"file_line\": 2\n        ,   \"special_function\": \"top (required)\"\n        }\n      , {   \"file_name\": \"/usr/share/rubygems/rubygems/core_ext/kernel_require.rb\"\n        ,   \"file_line\": 55\n        ,   \"function_name\": \"require\"\n        }\n      , {   \"file_name\": \"/usr/share/rubygems/rubygems/core_ext/kernel_require.rb\"\n        ,   \"file_line\": 55\n        ,   \"function_name\": \"require\"\n        }\n      , {   \"file_name\": \"/usr/share/gems/gems/compass-0.12.2/lib/compass/sass_extensions/sprites/engines.rb\"\n        ,   \"file_line\": 25\n        ,   \"special_function\": \"top (required)\"\n        }\n      , {   \"file_name\": \"/usr/share/rubygems/rubygems/core_ext/kernel_require.rb\"\n        ,   \"file_line\": 55\n        ,   \"function_name\": \"require\"\n        }\n      , {   \"file_name\": \"/usr/share/rubygems/rubygems/core_ext/kernel_require.rb\"\n        ,   \"file_line\": 55\n        ,   \"function_name\": \"require\"\n        }\n      , {   \"file_name\": \"/usr/share/gems/gems/compass-0.12.2/lib/compass/sass_extensions/sprites.rb\"\n        ,   \"file_line\": 18\n        ,   \"special_function\": \"top (required)\"\n        }\n      , {   \"file_name\": \"/usr/share/rubygems/rubygems/core_ext/kernel_require.rb\"\n        ,   \"file_line\": 55\n        ,   \"function_name\": \"require\"\n        }\n      , {   \"file_name\": \"/usr/share/rubygems/rubygems/core_ext/kernel_require.rb\"\n        ,   \"file_line\": 55\n        ,   \"function_name\": \"require\"\n        }\n      , {   \"file_name\": \"/usr/share/gems/gems/compass-0.12.2/lib/compass/sass_extensions.rb\"\n        ,   \"file_line\": 10\n        ,   \"special_function\": \"top (required)\"\n        }\n      , {   \"file_name\": \"/usr/share/rubygems/rubygems/core_ext/kernel_require.rb\"\n        ,   \"file_line\": 55\n        ,   \"function_name\": \"require\"\n        }\n      , {   \"file_name\": \"/usr/share/rubygems/rubygems/core_ext/kernel_require.rb\"\n        ,   \"file_line\": 55\n        ,   \"function_name\": \"require\"\n        }\n      , {   \"file_name\": \"/usr/share/gems/gems/compass-0.12.2/lib/compass.rb\"\n        ,   \"file_line\": 5\n        ,   \"special_function\": \"top (required)\"\n        ,   \"block_level\": 1\n        }\n      , {   \"file_name\": \"/usr/share/gems/gems/compass-0.12.2/lib/compass.rb\"\n        ,   \"file_line\": 4\n        ,   \"function_name\": \"each\"\n        }\n      , {   \"file_name\": \"/usr/share/gems/gems/compass-0.12.2/lib/compass.rb\"\n        ,   \"file_line\": 4\n        ,   \"special_function\": \"top (required)\"\n        }\n      , {   \"file_name\": \"/usr/share/rubygems/rubygems/core_ext/kernel_require.rb\"\n        ,   \"file_line\": 55\n        ,   \"function_name\": \"require\"\n        }\n      , {   \"file_name\": \"/usr/share/rubygems/rubygems/core_ext/kernel_require.rb\"\n        ,   \"file_line\": 55\n        ,   \"function_name\": \"require\"\n        }\n      , {   \"file_name\": \"/usr/share/gems/gems/compass-0.12.2/bin/compass\"\n        ,   \"file_line\": 20\n        ,   \"special_function\": \"top (required)\"\n        ,   \"block_level\": 1\n        }\n      , {   \"file_name\": \"/usr/share/gems/gems/compass-0.12.2/bin/compass\"\n        ,   \"file_line\": 8\n        ,   \"function_name\": \"fallback_load_path\"\n        }\n      , {   \"file_name\": \"/usr/share/gems/gems/compass-0.12.2/bin/compass\"\n        ,   \"file_line\": 19\n        ,   \"special_function\": \"top (required)\"\n        }\n      , {   \"file_name\": \"/usr/bin/compass\"\n        ,   \"file_line\": 23\n        ,   \"function_name\": \"load\"\n        }\n      , {   \"file_name\": \"/usr/bin/compass\"\n        ,   \"file_line\": 23\n        ,   \"special_function\": \"main\"\n        } ]\n}" := by
  decide +kernel

/-! ## JSON documents -/

/-- The stack trace of a document. -/
def read (type : Int) (text : Str) : Option Report.Stacktrace :=
  match Generic.fromJsonText type text with
  | .ok r => r
  | _ => none

/-! `test_from_json` (tests/python/python.py:93-141) -/

example : read 2 c!"{}" = some (.python {}) := by decide +kernel
example : read 2 c!"\n        {\n            \"exception_name\": \"NotImplementedError\",\n            \"stacktrace\": [\n                {\n                    \"file_name\": \"/usr/share/foobar/mod/file.py\",\n                    \"function_name\": \"do_nothing\",\n                    \"file_line\": 42,\n                    \"line_contents\": \"#this does nothing\"\n                },\n                {\n                    \"special_file\": \"stdin\",\n                    \"special_function\": \"module\",\n                    \"file_line\": 451\n                },\n                {\n                    \"unknown_key\": 19876543\n                }\n            ]\n        }\n" = some (.python
    { exceptionName := some c!"NotImplementedError", frames := [
      { fileName := some c!"/usr/share/foobar/mod/file.py", functionName := some c!"do_nothing", fileLine := 42, lineContents := some c!"#this does nothing" },
      { specialFile := true, fileName := some c!"stdin", specialFunction := true, functionName := some c!"module", fileLine := 451 },
      {}] }) := by
  decide +kernel

/-! `test_from_json` (tests/python/ruby.py:83-131) -/

example : read 6 c!"{}" = some (.ruby {}) := by decide +kernel
example : read 6 c!"\n        {\n            \"exception_name\": \"NotImplementedError\",\n            \"stacktrace\": [\n                {\n                    \"file_name\": \"/usr/share/foobar/mod/file.rb\",\n                    \"function_name\": \"do_nothing\",\n                    \"file_line\": 42,\n                },\n                {\n                    \"special_function\": \"top (required)\",\n                    \"file_line\": 451\n                },\n                {\n                    \"unknown_key\": 19876543,\n                    \"block_level\": 42,\n                    \"rescue_level\": 6\n                }\n            ]\n        }\n" = some (.ruby
    { exceptionName := some c!"NotImplementedError", frames := [
      { fileName := some c!"/usr/share/foobar/mod/file.rb", functionName := some c!"do_nothing", fileLine := 42 },
      { specialFunction := true, functionName := some c!"top (required)", fileLine := 451 },
      { blockLevel := 42, rescueLevel := 6 }] }) := by
  decide +kernel

/-! `test_from_json` (tests/python/javascript.py:60-95) -/

example : read 7 c!"{}" = some (.js {}) := by decide +kernel
example : read 7 c!"\n        {\n            \"exception_name\": \"ReferenceError\",\n            \"stacktrace\": [\n                {\n                    \"file_name\": \"bar.js\",\n                    \"function_name\": \"do_nothing\",\n                    \"file_line\": 42,\n                    \"line_column\": 24,\n                },\n                {\n                    \"file_name\": \"foo.js\",\n                    \"function_name\": \"do_everything\",\n                    \"file_line\": 21,\n                    \"line_column\": 12,\n                },\n            ]\n        }\n" = some (.js
    { exceptionName := some c!"ReferenceError", frames := [
      { fileName := some c!"bar.js", functionName := some c!"do_nothing", fileLine := 42, lineColumn := 24 },
      { fileName := some c!"foo.js", functionName := some c!"do_everything", fileLine := 21, lineColumn := 12 }] }) := by
  decide +kernel

/-! `test_from_json` (tests/python/java.py:55-133) -/

example : read 4 c!"{}" = some (.java {}) := by decide +kernel
example : read 4 c!"\n        {\n            \"threads\": [\n                {\n                    \"name\": \"ProbablySomeThreadOrSomethingImpl\",\n                    \"frames\": [\n                        {\n                            \"name\": \"julia\",\n                            \"file_name\": \"/u/b/f\",\n                            \"file_line\": 9000,\n                            \"class_path\": \"i don't know\",\n                            \"is_native\": false,\n                            \"is_exception\": false,\n                            \"message\": \"Hi!\"\n                        },\n                        {},\n                        {\n                            \"name\": \"helen\",\n                            \"is_exception\": true\n                        }\n                    ],\n                    \"what is\": \"this\",\n                },\n                {\n                    \"name\": \"TheOtherThread\",\n                    \"frames\": [\n                        {\n                            \"name\": \"tiffany\",\n                            \"file_name\": \"blahz\",\n                            \"is_native\": true,\n                        }\n                    ]\n                }\n            ]\n        }\n" = some (.java
    { threads := [
      { name := some c!"ProbablySomeThreadOrSomethingImpl", frames := [{ name := some c!"julia", fileName := some c!"/u/b/f", fileLine := 9000, classPath := some c!"i don't know", message := some c!"Hi!" }, {}, { name := some c!"helen", isException := true }] },
      { name := some c!"TheOtherThread", frames := [{ name := some c!"tiffany", fileName := some c!"blahz", isNative := true }] }] }) := by
  decide +kernel

/-! `test_from_json` (tests/python/koops.py:83-160) -/

example : read 3 c!"{}" = some (.koops {}) := by decide +kernel
example : read 3 c!"\n        {\n            \"version\": \"3.11.666\",\n            \"taint_flags\": [\"warning\", \"died_recently\"],\n            \"modules\": [\"not\", \"much\", \"modules\", \"loaded\"],\n            \"frames\": [\n                {\n                    \"address\": 28,\n                    \"reliable\": true,\n                    \"function_name\": \"f\",\n                    \"function_offset\": 5,\n                    \"function_length\": 6,\n                    \"module_name\": \"modularmodule\",\n                    \"from_address\": 27,\n                    \"from_function_name\": \"h\",\n                    \"from_function_offset\": 3,\n                    \"from_function_length\": 9,\n                    \"from_module_name\": \"nonmodularmodule\",\n                    \"byl\": \"jsem tady\"\n                },\n                {\n                },\n                {\n                    \"address\": 23,\n                    \"reliable\": false,\n                    \"function_name\": \"g\",\n                    \"module_name\": \"much\",\n                }\n            ]\n        }\n" = some (.koops
    { version := some c!"3.11.666", taint := { warning := true, diedRecently := true },
      modules := some [c!"not", c!"much", c!"modules", c!"loaded"], frames := [
      { address := 28, reliable := true, functionName := some c!"f", functionOffset := 5, functionLength := 6, moduleName := some c!"modularmodule", fromAddress := 27, fromFunctionName := some c!"h", fromFunctionOffset := 3, fromFunctionLength := 9, fromModuleName := some c!"nonmodularmodule" },
      {},
      { address := 23, functionName := some c!"g", moduleName := some c!"much" }] }) := by
  decide +kernel

end Satyr.Conformance.Python
