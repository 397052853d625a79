import Verif.CStr.Model
import Verif.CStr.Lit
/-! Table of removable functions, generated from lib/normalize_hash.gperf. -/
namespace Satyr.Normalize
open Satyr.CStr

/-- The keyword section of lib/normalize_hash.gperf (lines 20-187): function name, source files. -/
def removableTable : List (Str × List Str) :=
  [(c!"may_core_dump", [c!"os_unix.c"]),
   (c!"mch_exit", [c!"os_unix.c"]),
   (c!"os::abort", [c!"os_linux.cpp"]),
   (c!"VMError::report_and_die", [c!"vmError.cpp"]),
   (c!"JVM_handle_linux_signal", [c!"os_linux_x86.cpp"]),
   (c!"gerror_to_dbus_error_message", [c!"dbus-gobject.c"]),
   (c!"dbus_g_method_return_error", [c!"dbus-gobject.c"]),
   (c!"message_queue_dispatch", [c!"dbus-gmain.c"]),
   (c!"_dbus_abort", [c!"dbus-sysdeps.c", c!"libdbus"]),
   (c!"dbus_connection_dispatch", [c!"dbus-connection.c", c!"libdbus"]),
   (c!"gdk_x_error", [c!"gdkmain-x11.c"]),
   (c!"gdk_threads_dispatch", [c!"gdk.c"]),
   (c!"gdk_event_dispatch", [c!"gdkevents-x11.c", c!"gdkevents.c"]),
   (c!"gdk_event_source_dispatch", [c!"gdkeventsource.c"]),
   (c!"_gdk_x11_display_error_event", [c!"gdkdisplay-x11.c", c!"libgdk"]),
   (c!"g_log", [c!"gmessages.c", c!"libglib"]),
   (c!"g_logv", [c!"gmessages.c", c!"libglib"]),
   (c!"g_assertion_message", [c!"gtestutils.c", c!"libglib"]),
   (c!"g_assertion_message_expr", [c!"gtestutils.c", c!"libglib"]),
   (c!"g_closure_invoke", [c!"gclosure.c", c!"libgobject"]),
   (c!"g_free", [c!"gmem.c", c!"libglib"]),
   (c!"g_type_class_meta_marshal", [c!"gclosure.c", c!"libglib"]),
   (c!"g_signal_emit_valist", [c!"gsignal.c", c!"libgobject"]),
   (c!"signal_emit_unlocked_R", [c!"gsignal.c", c!"libgobject"]),
   (c!"g_signal_emit", [c!"gsignal.c", c!"libgobject"]),
   (c!"g_idle_dispatch", [c!"gmain.c", c!"gutf8.c"]),
   (c!"g_object_dispatch_properties_changed", [c!"gobject.c", c!"libgobject"]),
   (c!"g_object_notify_dispatcher", [c!"gobject.c", c!"libgobject"]),
   (c!"g_object_unref", [c!"gobject.c", c!"libgobject"]),
   (c!"g_object_run_dispose", [c!"gobject.c", c!"libgobject"]),
   (c!"g_object_new", [c!"gobject.c", c!"libgobject"]),
   (c!"g_object_newv", [c!"gobject.c", c!"libgobject"]),
   (c!"g_main_context_dispatch", [c!"gmain.c", c!"libglib"]),
   (c!"g_main_context_iterate", [c!"gmain.c", c!"libglib"]),
   (c!"g_main_dispatch", [c!"gmain.c", c!"libglib"]),
   (c!"g_main_loop_run", [c!"gmain.c", c!"libglib"]),
   (c!"g_timeout_dispatch", [c!"gmain.c", c!"libglib"]),
   (c!"g_thread_pool_thread_proxy", [c!"gthreadpool.c", c!"libglib"]),
   (c!"g_thread_create_proxy", [c!"gthread.c", c!"libglib"]),
   (c!"g_cclosure_marshal_VOID__BOXED", [c!"gmarshal.c", c!"libgobject"]),
   (c!"g_cclosure_marshal_VOID__VOID", [c!"gclosure.c", c!"gmarshal.c", c!"libgobject"]),
   (c!"g_object_notify", [c!"gobject.c", c!"libgobject"]),
   (c!"Glib::exception_handlers_invoke()", [c!"libglibmm"]),
   (c!"g_signal_handlers_destroy", [c!"gsignal.c", c!"libgobject"]),
   (c!"g_vasprintf", [c!"gprintf.c", c!"libglib"]),
   (c!"g_strdup_vprintf", [c!"libglib"]),
   (c!"g_strdup_printf", [c!"libglib"]),
   (c!"g_print", [c!"libglib"]),
   (c!"invalid_closure_notify", [c!"gsignal.c", c!"libgobject"]),
   (c!"smc_tree_abort", [c!"gslice.c", c!"libglib"]),
   (c!"g_thread_abort", [c!"libglib"]),
   (c!"_g_log_abort", [c!"gmessages.c", c!"libglib"]),
   (c!"g_log_default_handler", [c!"gmessages.c", c!"libglib"]),
   (c!"g_log_writer_default", [c!"gmessages.c", c!"libglib"]),
   (c!"g_log_structured_array", [c!"gmessages.c", c!"libglib"]),
   (c!"g_log_structured", [c!"gmessages.c", c!"libglib"]),
   (c!"default_log_handler", [c!"main.c"]),
   (c!"g_signal_emit_by_name", [c!"gsignal.c", c!"libgobject"]),
   (c!"__gnu_cxx::__verbose_terminate_handler", [c!"vterminate.cc"]),
   (c!"__cxxabiv1::__terminate", [c!"eh_terminate.cc"]),
   (c!"std::terminate", [c!"eh_terminate.cc"]),
   (c!"__cxxabiv1::__cxa_throw", [c!"eh_throw.cc"]),
   (c!"__cxxabiv1::__cxa_rethrow", [c!"eh_throw.cc"]),
   (c!"__verbose_terminate_handler", [c!"vterminate.cc"]),
   (c!"__cxxabiv1::__cxa_pure_virtual", [c!"pure.cc"]),
   (c!"__kernel_vsyscall", [c!""]),
   (c!"_XReply", [c!"xcb_io.c"]),
   (c!"_XError", [c!"XlibInt.c"]),
   (c!"XSync", [c!"Sync.c"]),
   (c!"process_responses", [c!"xcb_io.c"]),
   (c!"OsSigHandler", [c!"osinit.c"]),
   (c!"FatalError", [c!"log.c"]),
   (c!"AbortServer", [c!"log.c"]),
   (c!"AbortDDX", [c!"xf86Init.c"]),
   (c!"ddxGiveUp", [c!"xf86Init.c"]),
   (c!"OsAbort", [c!"utils.c"]),
   (c!"handle_error", [c!"xcb_io.c", c!"libX11"]),
   (c!"_XIOError", [c!"XlibInt.c", c!"libX11"]),
   (c!"_XEventsQueued", [c!"xcb_io.c", c!"libX11"]),
   (c!"handle_response", [c!"xcb_io.c", c!"libX11"]),
   (c!"_start", [c!""]),
   (c!"__libc_start_main", [c!"libc"]),
   (c!"clone", [c!"clone.S", c!"libc"]),
   (c!"poll", [c!"libc"]),
   (c!"_IO_new_fclose", [c!"iofclose.c", c!"libc"]),
   (c!"_IO_vfprintf_internal", [c!"vfprintf.c", c!"libc"]),
   (c!"_IO_default_xsputn", [c!"genops.c", c!"libc"]),
   (c!"_IO_wdefault_xsputn", [c!"wgenops.c", c!"libc"]),
   (c!"__libc_message", [c!"libc_fatal.c", c!"libc"]),
   (c!"start_thread", [c!"pthread_create.c", c!"libpthread"]),
   (c!"assert_cursor", [c!"intel_display.c"]),
   (c!"assert_device_not_suspended", [c!"intel_uncore.c"]),
   (c!"assert_pipe", [c!"intel_display.c"]),
   (c!"assert_plane", [c!"intel_display.c"]),
   (c!"assert_transcoder_disabled", [c!"intel_display.c"]),
   (c!"btrfs_assert_delayed_root_empty", [c!"delayed-inode.c", c!"btrfs"]),
   (c!"_cogl_set_error", [c!"cogl-error.c", c!"libcogl"]),
   (c!"defaultCrashHandler", [c!"kcrash.cpp", c!"libKF5Crash"]),
   (c!"_dl_signal_error", [c!"dl-error.c", c!"ld-linux"]),
   (c!"error_dialog_response_cb", [c!""]),
   (c!"do_warn", [c!"_warnings.c", c!"libpython"]),
   (c!"QMessageLogger::fatal(char const*, ...) const", [c!""]),
   (c!"nsProfileLock::FatalSignalHandler(int, siginfo_t*, void*)", [c!""]),
   (c!"qt_message_output", [c!"qglobal.cpp", c!"libQtCore"]),
   (c!"qt_message_output(QtMsgType, char const*)", [c!""]),
   (c!"signalHandler(int, siginfo_t*, void*)", [c!""]),
   (c!"FatalSignalHandler", [c!"nsProfileLock.cpp", c!"libxul"]),
   (c!"Foam::error::abort()", [c!""]),
   (c!"JS_AbortIfWrongThread", [c!"libmozjs"]),
   (c!"Crash::defaultCrashHandler(int)", [c!"libkdeui", c!"libKF5Crash"]),
   (c!"Py_FatalError", [c!"pythonrun.c", c!"libpython"]),
   (c!"__btrfs_abort_transaction", [c!"btrfs"]),
   (c!"assert_pch_hdmi_disabled", [c!""]),
   (c!"assert_pll", [c!""]),
   (c!"core::system::abort()", [c!""]),
   (c!"ddd_assert_fail", [c!"assert.C"]),
   (c!"debug_dma_assert_idle", [c!""]),
   (c!"error_handler", [c!""]),
   (c!"fatal_error_signal", [c!""]),
   (c!"fatal_handler", [c!"signal.c", c!"libfreerdp"]),
   (c!"gpf_notice", [c!""]),
   (c!"log", [c!""]),
   (c!"_log", [c!""]),
   (c!"log_assert_failed", [c!""]),
   (c!"mozalloc_abort", [c!"mozalloc_abort.cpp", c!"libmozalloc"]),
   (c!"mozalloc_abort(char const*)", [c!"libmozalloc", c!"content-container", c!"plugin-container"]),
   (c!"note_interrupt", [c!"spurious.c", c!"vmlinux"]),
   (c!"print_bad_pte", [c!"memory.c", c!"vmlinux"]),
   (c!"print_oops_end_marker", [c!"panic.c", c!"vmlinux"]),
   (c!"printk", [c!"printk.c", c!"vmlinux"]),
   (c!"qupzilla_signal_handler", [c!"main.cpp", c!"qupzilla"]),
   (c!"rb_bug", [c!"error.c", c!"libruby"]),
   (c!"sighandler", [c!""]),
   (c!"signalHandler(int)", [c!""]),
   (c!"signal_abort", [c!"signal.c"]),
   (c!"signal_handler", [c!""]),
   (c!"sys_abort", [c!"error.c", c!"libgfortran"]),
   (c!"terminate_due_to_signal", [c!"emacs.c", c!"emacs"]),
   (c!"wl_log", [c!"wayland-util.c"]),
   (c!"display_protocol_error", [c!"wayland-client.c"]),
   (c!"display_handle_error", [c!"wayland-client.c"]),
   (c!"x_io_error", [c!"libmutter", c!"meta-xwayland.c"]),
   (c!"__ioremap_calle", [c!"ioremap.c"]),
   (c!"ioremap_nocache", [c!"ioremap.c"]),
   (c!"wpa_msg", [c!"wpa_debug.c"]),
   (c!"js::gc::FinalizeArenas(js::FreeOp*, js::gc::ArenaHeader**, js::gc::ArenaList&, js::gc::AllocKind, js::SliceBudget&)", [c!""]),
   (c!"js::Shape::finalize(js::FreeOp*)", [c!""]),
   (c!"WTF::StringImpl::endsWith(char const*, unsigned int, bool) const", [c!""]),
   (c!"mozilla::plugins::child::_invokedefault(_NPP*, NPObject*, _NPVariant const*, unsigned int, _NPVariant*)", [c!""]),
   (c!"xitk_signal_handler", [c!"xitk.c", c!"xine"]),
   (c!"dump_gjs_stack_on_signal_handler", [c!"main.c"]),
   (c!"meta_run", [c!"libmutter", c!"main.c"])]

end Satyr.Normalize
