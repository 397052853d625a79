import Verif.Gdb.TraceModel
import Verif.Gdb.LibModel
import Verif.Frames.ThreadCmp
/-!
# The unit tests of GDB stack traces, run on the model

Inputs and expected results are those of tests/gdb_frame.c and tests/gdb_thread.c, which the C functions pass. They do not prove anything
for all inputs; they are evidence that the model is a model of the code. The big files of tests/gdb_stacktraces were evaluated outside the
build (see DESIGN.md).
-/
namespace Satyr.Conformance.Gdb
open Satyr.CStr Satyr.Frames Satyr.Normalize Satyr.Gdb

set_option maxRecDepth 40000
set_option synthInstance.maxSize 1000
set_option synthInstance.maxHeartbeats 100000

/-- `-1` as `uint64_t`. -/
def noAddress : Nat := 18446744073709551615
/-- `-1` as `unsigned`. -/
def noLine : Nat := 4294967295
/-- What `sr_gdb_frame_init` makes (lib/gdb_frame.c:75-88). -/
def initFrame : GdbFrame := { address := noAddress, sourceLine := noLine }

/-- The result of a parser, and how many characters it has read. -/
def count {A : Type} (s : Str) (r : Out (Option (A × Str))) : Out (Option (A × Nat)) := do
  match ← r with
  | none => .ok none
  | some (a, t) => .ok (some (a, s.length - t.length))

/-- The parser reads everything, and the result has the property. -/
def whole {A : Type} (r : Out (Option (A × Str))) (p : A → Bool) : Bool :=
  match r with
  | .ok (some (a, t)) => t.isEmpty && p a
  | _ => false

-- tests/gdb_frame.c:50-93
example : count c!"#10 " (frameStart c!"#10 ") = .ok (some (10, 4)) := by decide +kernel
example : count c!"#0  " (frameStart c!"#0  ") = .ok (some (0, 4)) := by decide +kernel
example : count c!"#99999  " (frameStart c!"#99999  ") = .ok (some (99999, 8)) := by decide +kernel
example : count c!"ab " (frameStart c!"ab ") = .ok none := by decide +kernel
example : count c!"#ab " (frameStart c!"#ab ") = .ok none := by decide +kernel
example : count c!"#-9999 " (frameStart c!"#-9999 ") = .ok none := by decide +kernel
-- tests/gdb_frame.c:95-134
example : parseOperator c!"operator>" = some (c!"operator>", []) := by decide +kernel
example : parseOperator c!"operator->" = some (c!"operator->", []) := by decide +kernel
example : parseOperator c!"operator new" = some (c!"operator new", []) := by decide +kernel
example : parseOperator c!"operator new[]" = some (c!"operator new[]", []) := by decide +kernel
example : parseOperator c!"operator delete" = some (c!"operator delete", []) := by decide +kernel
example : parseOperator c!"operator del" = none := by decide +kernel
example : parseOperator c!"operator delete[] (test)" = some (c!"operator delete[]", c!" (test)") := by decide +kernel
example : parseOperator c!"cairo_add_operator (test)" = none := by decide +kernel
-- tests/gdb_frame.c:136-191
example : functionName c!"?? " = .ok (some ((c!"??", none), [' '])) := by decide +kernel
example : functionName c!"IA__g_bookmark_file_to_file " = .ok (some ((c!"IA__g_bookmark_file_to_file", none), [' '])) := by decide +kernel
example : functionName c!"pthread_cond_timedwait@@GLIBC_2.3.2 " = .ok (some ((c!"pthread_cond_timedwait@@GLIBC_2.3.2", none), [' '])) := by decide +kernel
example : functionName c!"_pixman_walk_composite_region " = .ok (some ((c!"_pixman_walk_composite_region", none), [' '])) := by decide +kernel
example : functionName c!"CairoOutputDev::tilingPatternFill " = .ok (some ((c!"CairoOutputDev::tilingPatternFill", none), [' '])) := by decide +kernel
example : functionName c!"sdr::(anonymous namespace)::ViewContact::~ViewContact " = .ok (some ((c!"sdr::(anonymous namespace)::ViewContact::~ViewContact", none), [' '])) := by decide +kernel
example : functionName c!"operator==<nsIAtom, nsICSSPseudoClass> " = .ok (some ((c!"operator==<nsIAtom, nsICSSPseudoClass>", none), [' '])) := by decide +kernel
example : functionName c!"wait_until<std::unique_lock<bmalloc::Mutex>, std::chrono::_V2::system_clock, std::chrono::duration<long int, std::ratio<1l, 1000000000l> >, bmalloc::AsyncTask<Object, Function>::entryPoint() [with Object = bmalloc::Heap; Function = void (bmalloc::Heap::*)()]::<lambda()> > " = .ok (some ((c!"wait_until<std::unique_lock<bmalloc::Mutex>, std::chrono::_V2::system_clock, std::chrono::duration<long int, std::ratio<1l, 1000000000l> >, bmalloc::AsyncTask<Object, Function>::entryPoint() [with Object = bmalloc::Heap; Function = void (bmalloc::Heap::*)()]::<lambda()> >", none), [' '])) := by decide +kernel
-- tests/gdb_frame.c:193-249
example : templateArgs c!" []" = .ok none := by decide +kernel
example : templateArgs c!" [with " = .ok none := by decide +kernel
example : templateArgs c!" [with [" = .ok none := by decide +kernel
example : templateArgs c!" [within ]" = .ok none := by decide +kernel
example : templateArgs c!" [with [[[]]]" = .ok none := by decide +kernel
example : templateArgs c!" [with [[[]]]" = .ok none := by decide +kernel
example : templateArgs c!" [with [a][b][c][d][e]" = .ok none := by decide +kernel
example : templateArgs c!" [with ]" = .ok (some (c!" [with ]", [])) := by decide +kernel
example : templateArgs c!" [with ]]" = .ok (some (c!" [with ]", c!"]")) := by decide +kernel
example : templateArgs c!" [with [a][b][c][d]]" = .ok (some (c!" [with [a][b][c][d]]", [])) := by decide +kernel
example : templateArgs c!" [with [f = [ d([g[e]])]]]" = .ok (some (c!" [with [f = [ d([g[e]])]]]", [])) := by decide +kernel
example : templateArgs c!" [with j() = [h<[i]>]; k = [l, m, n~[o]]]" = .ok (some (c!" [with j() = [h<[i]>]; k = [l, m, n~[o]]]", [])) := by decide +kernel
example : templateArgs c!" [with Func = boost:graphs::bfs<tr1::distance([blah])>()]" = .ok (some (c!" [with Func = boost:graphs::bfs<tr1::distance([blah])>()]", [])) := by decide +kernel
example : templateArgs c!" [with Object = std::map<std::string, std::string>; Func = boost:graphs::bfs<tr1::distance([blah])>(}, Param = int]" = .ok (some (c!" [with Object = std::map<std::string, std::string>; Func = boost:graphs::bfs<tr1::distance([blah])>(}, Param = int]", [])) := by decide +kernel
-- tests/gdb_frame.c:251-292
example : skipArgs c!"()" = .ok (some []) := by decide +kernel
example : skipArgs c!"(\npage=0x7f186003e280, \ncairo=0x7f18600efd10, printing=0)" = .ok (some []) := by decide +kernel
example : skipArgs c!"(this=0x7f1860023400, DPI=<value optimized out>)" = .ok (some []) := by decide +kernel
example : skipArgs c!"(filename=0x18971b0 \"/home/jfclere/.recently-used.xbel\")" = .ok (some []) := by decide +kernel
example : skipArgs c!"(func=<function at remote 0x1b3aa28>, arg=(<vmmAsyncJob(show_progress=False, topwin=<gtk.Window at remote 0x1b43690>, cancel_args=[<...>], _gobject_handles=[], _signal_id_map={}, cancel_job=None, window=<gtk.glade.XML at remote 0x1b43aa0>, _gobject_timeouts=[], config=<vmmConfig(rhel6_defaults=False, support_threading=True, glade_dir='/usr/share/virt-manager', _spice_error=None, conf_dir='/apps/virt-manager', appname='virt-manager', libvirt_packages=['libvirt'], support_inspection=False, keyring=None, appversion='0.9.0', preferred_distros=['rhel', 'fedora'], hv_packages=['qemu-kvm'], conf=<gconf.Client at remote 0x17ea9b0>, _objects=@<:@'<vmmErrorDialog object at 0x1885460 (virtManager+error+vmmErrorDialog at 0xfe9080)>', '<vmmEngine object at 0x1acaaf0 (virtManager+engine+vmmEngine at 0xfe8920)>', '<vmmErrorDialog object at 0x1acacd0 (virtManager+error+vmmErrorDialog at 0xfe2000)>', '<vmmSystray object at 0x1acad20 (virtManager+systray+vmmSystray at 0xfe8e60)>', '<vmmErrorDialog object at 0x1acad70 (virtManager+error+vmmErrorDialog at 0xd9b120)>', '<vm...(truncated), kw={})" = .ok (some []) := by decide +kernel
-- tests/gdb_frame.c:294-395
example : functionCall c!"?? ()" = .ok (some ((c!"??", none), [])) := by decide +kernel
example : functionCall c!"fsync ()" = .ok (some ((c!"fsync", none), [])) := by decide +kernel
example : functionCall c!"write_to_temp_file (\nfilename=0x18971b0 \"/home/jfclere/.recently-used.xbel\", \ncontents=<value optimized out>, length=29917, error=0x7fff3cbe4110)" = .ok (some ((c!"write_to_temp_file", none), [])) := by decide +kernel
example : functionCall c!"osgText::Font::GlyphTexture::apply(osg::State&) const ()" = .ok (some ((c!"osgText::Font::GlyphTexture::apply(osg::State&) const", none), [])) := by decide +kernel
example : functionCall c!"osgUtil::RenderStage::drawInner(osg::RenderInfo&, osgUtil::RenderLeaf*&, bool&) ()" = .ok (some ((c!"osgUtil::RenderStage::drawInner(osg::RenderInfo&, osgUtil::RenderLeaf*&, bool&)", none), [])) := by decide +kernel
example : functionCall c!"nsRegion::RgnRect::operator new ()" = .ok (some ((c!"nsRegion::RgnRect::operator new", none), [])) := by decide +kernel
example : functionCall c!"sigc::internal::slot_call0<sigc::bound_mem_functor0<void, Driver>, void>::call_it (this=0x6c)" = .ok (some ((c!"sigc::internal::slot_call0<sigc::bound_mem_functor0<void, Driver>, void>::call_it", none), [])) := by decide +kernel
example : functionCall c!"sigc::internal::slot_call0<sigc::bound_mem_functor0<void, GameWindow>, void>::call_it(sigc::internal::slot_rep*) ()" = .ok (some ((c!"sigc::internal::slot_call0<sigc::bound_mem_functor0<void, GameWindow>, void>::call_it(sigc::internal::slot_rep*)", none), [])) := by decide +kernel
example : functionCall c!"operator< <char, std::char_traits<char>, std::allocator<char> > (__s1=<value optimized out>)" = .ok (some ((c!"operator< <char, std::char_traits<char>, std::allocator<char> >", none), [])) := by decide +kernel
example : functionCall c!"operator-> ()" = .ok (some ((c!"operator->", none), [])) := by decide +kernel
example : functionCall c!"cairo_set_operator (cr=0x0, op=CAIRO_OPERATOR_OVER)" = .ok (some ((c!"cairo_set_operator", none), [])) := by decide +kernel
example : functionCall c!"void boost::throw_exception<boost::filesystem::basic_filesystem_error<boost::filesystem::basic_path<std::basic_string<char, std::char_traits<char>, std::allocator<char> >, boost::filesystem::path_traits> > >(boost::filesystem::basic_filesystem_error<boost::filesystem::basic_path<std::basic_string<char, std::char_traits<char>, std::allocator<char> >, boost::filesystem::path_traits> > const&) ()" = .ok (some ((c!"boost::throw_exception<boost::filesystem::basic_filesystem_error<boost::filesystem::basic_path<std::basic_string<char, std::char_traits<char>, std::allocator<char> >, boost::filesystem::path_traits> > >(boost::filesystem::basic_filesystem_error<boost::filesystem::basic_path<std::basic_string<char, std::char_traits<char>, std::allocator<char> >, boost::filesystem::path_traits> > const&)", some c!"void"), [])) := by decide +kernel
-- tests/gdb_frame.c:397-448
example : addressInFunction c!"raise (sig=6)" = .ok (noAddress, some ((c!"raise", none), [])) := by decide +kernel
example : addressInFunction c!"0x00ad0a91 in raise (sig=6)" = .ok (11340433, some ((c!"raise", none), [])) := by decide +kernel
example : addressInFunction c!"0xf00000322221730e in IA__g_bookmark_file_to_file (\nfilename=0x18971b0 \"/home/jfclere/.recently-used.xbel\", \nerror=0x7fff3cbe4160)" = .ok (17293822784423686926, some ((c!"IA__g_bookmark_file_to_file", none), [])) := by decide +kernel
-- tests/gdb_frame.c:450-505
example : fileLocation c!"\n at gtkrecentmanager.c" = .ok (some (some c!"gtkrecentmanager.c", noLine, [])) := by decide +kernel
example : fileLocation c!"\n at gtkrecentmanager.c:1377" = .ok (some (some c!"gtkrecentmanager.c", 1377, [])) := by decide +kernel
example : fileLocation c!" at ../sysdeps/unix/syscall-template.S:82" = .ok (some (some c!"../sysdeps/unix/syscall-template.S", 82, [])) := by decide +kernel
example : fileLocation c!" at _polkitauthenticationagent.c:885" = .ok (some (some c!"_polkitauthenticationagent.c", 885, [])) := by decide +kernel
-- tests/gdb_frame.c:507-595
example : whole (parseHeader c!"#0  slot_tp_getattr_hook (self=<YumAvailableP...>) at /usr/src/debug/Python-2.7.1/Objects/typeobject.c:5436") (fun f => gdbCmp true f { initFrame with functionName := some c!"slot_tp_getattr_hook", number := 0, sourceFile := some c!"/usr/src/debug/Python-2.7.1/Objects/typeobject.c", sourceLine := 5436 } == 0) = true := by decide +kernel
example : whole (parseHeader c!"#1  0x000000322160e7fd in fsync () at ../sysdeps/unix/syscall-template.S:82") (fun f => gdbCmp true f { initFrame with functionName := some c!"fsync", number := 1, sourceFile := some c!"../sysdeps/unix/syscall-template.S", sourceLine := 82, address := 215308363773 } == 0) = true := by decide +kernel
example : whole (parseHeader c!"#4  0x0000003f96d71056 in nsRegion::RgnRect::operator new ()\n    at nsRegion.cpp:214") (fun f => gdbCmp true f { initFrame with functionName := some c!"nsRegion::RgnRect::operator new", number := 4, sourceFile := some c!"nsRegion.cpp", sourceLine := 214, address := 273113616470 } == 0) = true := by decide +kernel
example : whole (parseHeader c!"#15 0x08201bdf in sigc::internal::slot_call0<sigc::bound_mem_functor0<void, GameWindow>, void>::call_it(sigc::internal::slot_rep*) ()") (fun f => gdbCmp true f { initFrame with functionName := some c!"sigc::internal::slot_call0<sigc::bound_mem_functor0<void, GameWindow>, void>::call_it(sigc::internal::slot_rep*)", number := 15, address := 136322015 } == 0) = true := by decide +kernel
example : whole (parseHeader c!"#30 handle_message (message=<value optimized out>,\ninterface=<value optimized out>) at _polkitauthenticationagent.c:885") (fun f => gdbCmp true f { initFrame with functionName := some c!"handle_message", number := 30, sourceFile := some c!"_polkitauthenticationagent.c", sourceLine := 885 } == 0) = true := by decide +kernel
-- tests/gdb_frame.c:597-665
example : whole (parseFrame c!"#1  0x000000322160e7fd in fsync () at ../sysdeps/unix/syscall-template.S:82\nNo locals.") (fun f => gdbCmp true f { initFrame with functionName := some c!"fsync", number := 1, sourceFile := some c!"../sysdeps/unix/syscall-template.S", sourceLine := 82, address := 215308363773 } == 0) = true := by decide +kernel
example : count c!"#1  0x000000322160e7fd in fsync () at ../sysdeps/unix/syscall-template.S:82\nNo locals.\n#2  0x003f4f3f in IA__g_main_loop_run (loop=0x90e2c50) at gmain.c:2799\n        self = 0x8b80038\n  __PRETTY_FUNCTION__ = \"IA__g_main_loop_run\"\n" (parseFrame c!"#1  0x000000322160e7fd in fsync () at ../sysdeps/unix/syscall-template.S:82\nNo locals.\n#2  0x003f4f3f in IA__g_main_loop_run (loop=0x90e2c50) at gmain.c:2799\n        self = 0x8b80038\n  __PRETTY_FUNCTION__ = \"IA__g_main_loop_run\"\n") = .ok (some ({ initFrame with functionName := some c!"fsync", number := 1, sourceFile := some c!"../sysdeps/unix/syscall-template.S", sourceLine := 82, address := 215308363773 }, 87)) := by decide +kernel
-- tests/gdb_thread.c:162-254
def frames : List GdbFrame :=
  [{ initFrame with functionName := some c!"fsync", number := 0, sourceFile := some c!"../sysdeps/unix/syscall-template.S", sourceLine := 82, address := 215308363773 },
   { initFrame with functionName := some c!"write_to_temp_file", number := 1, sourceFile := some c!"gfileutils.c", sourceLine := 980, address := 215308363773 }]
example : whole (parseThread c!"Thread 3 (Thread 11917):\n#0  0x000000322160e7fd in fsync () at ../sysdeps/unix/syscall-template.S:82\nNo locals.\n#1  0x000000322222987a in write_to_temp_file (\n    filename=0x18971b0 \"/home/jfclere/.recently-used.xbel\", \n    contents=<value optimized out>, length=29917, error=0x7fff3cbe4110)\n    at gfileutils.c:980\n        statbuf = {st_dev = 64768, st_ino = 13709, st_nlink = 1, \n          st_mode = 33152, st_uid = 500, st_gid = 500, __pad0 = 0, \n          st_rdev = 0, st_size = 29917, st_blksize = 4096, st_blocks = 64, \n          st_atim = {tv_sec = 1273231242, tv_nsec = 73521863}, st_mtim = {\n            tv_sec = 1273231242, tv_nsec = 82521015}, st_ctim = {\n            tv_sec = 1273231242, tv_nsec = 190522021}, __unused = {0, 0, 0}}\n") (fun t => gdbThreadCmp t { number := 3, tid := noLine, frames := frames } == 0) = true := by decide +kernel
example : whole (parseThread c!"Thread 3 (Thread 0xdd119170 (LWP 6357)):\n#0  0x000000322160e7fd in fsync () at ../sysdeps/unix/syscall-template.S:82\nNo locals.\n#1  0x000000322222987a in write_to_temp_file () at gfileutils.c:980\nNo locals.\n") (fun t => gdbThreadCmp t { number := 3, tid := 6357, frames := frames } == 0 && t.tid == 6357) = true := by decide +kernel
example : whole (parseThread c!"Thread 3 (LWP 635):\n#0  0x000000322160e7fd in fsync () at ../sysdeps/unix/syscall-template.S:82\nNo locals.\n#1  0x000000322222987a in write_to_temp_file () at gfileutils.c:980\nNo locals.\n") (fun t => gdbThreadCmp t { number := 3, tid := 635, frames := frames } == 0 && t.tid == 635) = true := by decide +kernel
-- tests/gdb_thread.c:256-312 (without the locations)
example : parseThread c!"Thraed 3 (Thread 11917):\n" = .ok none := by decide +kernel
example : parseThread c!"Thread3 (Thread 11917):\n" = .ok none := by decide +kernel
example : parseThread c!"Thread  a (Thread 11917):\n" = .ok none := by decide +kernel
example : parseThread c!"Thread 8(Thread 11917):\n" = .ok none := by decide +kernel
example : parseThread c!"Thread 8 (11917):\n" = .ok none := by decide +kernel
example : parseThread c!"Thread 8 (Thread ffff):\n" = .ok none := by decide +kernel
example : parseThread c!"Thread 8 (Thread 1)\n" = .ok none := by decide +kernel
example : parseThread c!"Thread 3 (Thread 11917):\n\n" = .ok none := by decide +kernel
-- tests/gdb_thread.c:314-348
example : count c!"(LWP 20)" (parseLwp c!"(LWP 20)") = .ok (some (20, 8)) := by decide +kernel
example : count c!"(LWP 20)10" (parseLwp c!"(LWP 20)10") = .ok (some (20, 8)) := by decide +kernel
example : count c!"(LWP 3454343450)" (parseLwp c!"(LWP 3454343450)") = .ok (some (3454343450, 16)) := by decide +kernel
example : count c!"(LWP 2454434523)  " (parseLwp c!"(LWP 2454434523)  ") = .ok (some (2454434523, 16)) := by decide +kernel
example : count [] (parseLwp []) = .ok none := by decide +kernel
example : count c!" " (parseLwp c!" ") = .ok none := by decide +kernel
example : count c!" (LWP 20)" (parseLwp c!" (LWP 20)") = .ok none := by decide +kernel
example : count c!"(LWP" (parseLwp c!"(LWP") = .ok none := by decide +kernel
example : count c!"(LWP 20" (parseLwp c!"(LWP 20") = .ok none := by decide +kernel
example : count c!"(LWP )" (parseLwp c!"(LWP )") = .ok none := by decide +kernel
example : count c!"(LWP 20()" (parseLwp c!"(LWP 20()") = .ok none := by decide +kernel
example : count c!"(LWP 0x0)" (parseLwp c!"(LWP 0x0)") = .ok none := by decide +kernel
example : count c!"(LWP 20(" (parseLwp c!"(LWP 20(") = .ok none := by decide +kernel

end Satyr.Conformance.Gdb
