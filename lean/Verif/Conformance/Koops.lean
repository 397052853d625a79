import Verif.Generic.Model
/-!
# The unit tests of kernel oopses, run on the model

Inputs and expected results are those of tests/koops_frame.c, tests/koops_stacktrace.c and tests/python/koops.py, which the C functions
pass. The examples do not prove anything for all inputs; they are evidence that the model is a model of the code.
-/
namespace Satyr.Conformance.Koops
open Satyr.CStr Satyr.Frames Satyr.Text.Koops

set_option maxRecDepth 40000
set_option synthInstance.maxSize 1000
set_option synthInstance.maxHeartbeats 100000

/-! ## tests/koops_frame.c -/

-- tests/koops_frame.c:6-40
example : skipTimestamp c!"[  120.836230]" = .ok (true, []) ∧ skipTimestamp c!"[110417.280595]" = .ok (true, []) ∧
    skipTimestamp c!"--2012-06-28 " = .ok (false, c!"--2012-06-28 ") ∧
    skipTimestamp c!"[<ffffffff81479782>]" = .ok (false, c!"[<ffffffff81479782>]") := by decide +kernel
-- tests/koops_frame.c:43-77
example : parseAddress c!"[<ffffffff81479782>]" = .ok (18446744071583537026, some []) := by decide +kernel
-- tests/koops_frame.c:80-115
example : parseModuleName c!"[ppp_generic]" = .ok (some (c!"ppp_generic", [])) ∧ parseModuleName c!"ppp_generic" = .ok none := by decide +kernel
-- tests/koops_frame.c:118-172
example : parseFunction c!"warn_slowpath_common+0x7f/0xc0" =
      .ok (some (⟨some c!"warn_slowpath_common", 127, 192, none⟩, [])) ∧
    parseFunction c!"(_raw_spin_lock_irqsave+0x48/0x5c)" =
      .ok (some (⟨some c!"_raw_spin_lock_irqsave", 72, 92, none⟩, [])) := by decide +kernel

/-- The whole input is read and the frame agrees with the expected one. -/
def readsFrame (input : Str) (expected : KoopsFrame) : Bool :=
  match parseFrame input with
  | .ok (some (f, rest)) => rest == [] && decide (koopsCmp f expected = 0)
  | _ => false

-- tests/koops_frame.c:175-262
example : readsFrame c!"[<ffffffff8151f860>] ? ip_forward_options+0x1f0/0x1f0"
    { address := 18446744071584217184, reliable := false, functionName := some c!"ip_forward_options", functionOffset := 496,
      functionLength := 496 } = true := by decide +kernel
/-- The second frame of the test, which is also the frame of `test_koops_to_json`. -/
def mxs : KoopsFrame :=
  { address := 3224332060, reliable := true, functionName := some c!"_raw_spin_lock_irqsave", functionOffset := 72, functionLength := 92,
    fromAddress := 3204792608, fromFunctionName := some c!"mxs_mmc_enable_sdio_irq", fromFunctionOffset := 24, fromFunctionLength := 220,
    fromModuleName := some c!"mxs_mmc" }
example : readsFrame
    c!"[<c02f671c>] (_raw_spin_lock_irqsave+0x48/0x5c) from [<bf054120>] (mxs_mmc_enable_sdio_irq+0x18/0xdc [mxs_mmc])" mxs = true := by
  decide +kernel
example : readsFrame c!"sys_delete_module+0x11f/0x280"
    { reliable := true, functionName := some c!"sys_delete_module", functionOffset := 287, functionLength := 640 } = true := by
  decide +kernel
example : readsFrame c!"[<c0014318>] (dump_backtrace_log_lvl) from [<c001457c>] (show_stack+0x24/0x2c)"
    { address := 3221308184, reliable := true, functionName := some c!"dump_backtrace_log_lvl", fromAddress := 3221308796,
      fromFunctionName := some c!"show_stack", fromFunctionOffset := 36, fromFunctionLength := 44 } = true := by decide +kernel
-- tests/koops_frame.c:265-298
example : Json.Koops.frameToJson mxs =
    c!"{   \"address\": 3224332060\n,   \"reliable\": true\n,   \"function_name\": \"_raw_spin_lock_irqsave\"\n,   \"function_offset\": 72\n,   \"function_length\": 92\n,   \"from_address\": 3204792608\n,   \"from_function_name\": \"mxs_mmc_enable_sdio_irq\"\n,   \"from_function_offset\": 24\n,   \"from_function_length\": 220\n,   \"from_module_name\": \"mxs_mmc\"\n}" := by
  decide +kernel

/-! ## tests/koops_stacktrace.c -/

/-- The number of taint flags that are set (tests/koops_stacktrace.c:167-184). -/
def taintCount (t : Taints) : Nat :=
  [t.moduleProprietary, t.moduleOutOfTree, t.forcedModule, t.forcedRemoval, t.smpUnsafe, t.mce, t.pageRelease, t.userspace, t.diedRecently,
   t.acpiOverridden, t.warning, t.stagingDriver, t.firmwareWorkaround, t.unsignedModule, t.softLockup, t.livePatched].countP id

/-- What `test_koops_stacktrace_parse` looks at: the rest of the input, the functions of the first and the last frame, the numbers of frames,
taint flags and modules, the stacks of the first and the last frame. -/
def summary (s : Str) : Out (Str × Option Str × Option Str × Nat × Nat × Nat × Option Str × Option Str) := do
  let (t, rest) ← parseTrace s
  let get := fun (f : KoopsFrame → Option Str) (o : Option KoopsFrame) => o.bind f
  .ok (rest, get (·.functionName) t.frames.head?, get (·.functionName) t.frames.getLast?, t.frames.length, taintCount t.taint,
    (t.modules.getD []).length, get (·.specialStack) t.frames.head?, get (·.specialStack) t.frames.getLast?)

-- tests/koops_stacktrace.c:58-218; each example has the text of the file named before it
-- tests/kerneloopses/gitlog-04
example : summary c!"[ 1123.310275] ===============================\n[ 1123.442202] [ INFO: suspicious RCU usage. ]\n[ 1123.558207] 3.6.0-rc1+ #109 Not tainted\n[ 1123.665204] -------------------------------\n[ 1123.768254] include/linux/rcupdate.h:430 Illegal context switch in RCU read-side critical section!\n[ 1123.992320]\n[ 1123.992320] other info that might help us debug this:\n[ 1123.992320]\n[ 1124.307382]\n[ 1124.307382] rcu_scheduler_active = 1, debug_locks = 0\n[ 1124.522220] 2 locks held by sysctl/5710:\n[ 1124.648364]  #0:  (rtnl_mutex){+.+.+.}, at: [<ffffffff81768498>] rtnl_trylock+0x15/0x17\n[ 1124.882211]  #1:  (rcu_read_lock){.+.+.+}, at: [<ffffffff81871df8>] rcu_lock_acquire+0x0/0x29\n[ 1125.085209]\n[ 1125.085209] stack backtrace:\n[ 1125.332213] Pid: 5710, comm: sysctl Not tainted 3.6.0-rc1+ #109\n[ 1125.441291] Call Trace:\n[ 1125.545281]  [<ffffffff8109d915>] lockdep_rcu_suspicious+0x109/0x112\n[ 1125.667212]  [<ffffffff8107c240>] rcu_preempt_sleep_check+0x45/0x47\n[ 1125.781838]  [<ffffffff8107c260>] __might_sleep+0x1e/0x19b\n[ 1127.445223]  [<ffffffff81757ac5>] call_netdevice_notifiers+0x4a/0x4f\n[ 1127.772188]  [<ffffffff8175e125>] dev_disable_lro+0x32/0x6b\n[ 1127.885174]  [<ffffffff81872d26>] dev_forward_change+0x30/0xcb\n[ 1128.013214]  [<ffffffff818738c4>] addrconf_forward_change+0x85/0xc5\n" =
    .ok ([], some c!"lockdep_rcu_suspicious", some c!"addrconf_forward_change", 7, 0, 0, none, none) := by decide +kernel
-- tests/kerneloopses/gitlog-07
example : summary c!"[   99.408388] =============================================================================\n[   99.408393] BUG kmalloc-64 (Not tainted): Poison overwritten\n[   99.408394] -----------------------------------------------------------------------------\n[   99.408394]\n[   99.408398] INFO: 0xf2751962-0xf2751995. First byte 0x98 instead of 0x6b\n[   99.408402] INFO: Allocated in 0xfdc88c28 age=79 cpu=0 pid=1329\n[   99.408407]  __slab_alloc.isra.50.constprop.56+0x49f/0x533\n[   99.408410]  kmem_cache_alloc_trace+0x10d/0x140\n[   99.408412]  0xfdc88c28\n[   99.408414]  0xfdc898cc\n[   99.408417]  do_one_initcall+0x112/0x160\n[   99.408420]  sys_init_module+0xe6d/0x1bc0\n[   99.408422]  sysenter_do_call+0x12/0x28\n[   99.408427] INFO: Freed in hotkey_exit+0x50/0xb0 [thinkpad_acpi] age=14 cpu=1 pid=1333\n[   99.408429]  __slab_free+0x3d/0x30b\n[   99.408431]  kfree+0x129/0x140\n[   99.408435]  hotkey_exit+0x50/0xb0 [thinkpad_acpi]\n[   99.408438]  ibm_exit+0xe3/0x1a0 [thinkpad_acpi]\n[   99.408441]  thinkpad_acpi_module_exit+0x35/0x208 [thinkpad_acpi]\n[   99.408443]  sys_delete_module+0x11f/0x280\n[   99.408445]  sysenter_do_call+0x12/0x28\n[   99.408447] INFO: Slab 0xf4d5ea20 objects=17 used=17 fp=0x  (null) flags=0x40000080\n[   99.408449] INFO: Object 0xf2751960 @offset=2400 fp=0xf2751780\n[   99.408449]\n[   99.408452] Bytes b4 f2751950: 64 02 00 00 ae ce fe ff 5a 5a 5a 5a 5a 5a 5a 5a  d.......ZZZZZZZZ\n[   99.408454] Object f2751960: 6b 6b 98 00 ec 00 8e 00 ee 00 6b 6b e3 00 bf 00 kk........kk....\n[   99.408456] Object f2751970: c2 00 6b 6b 6b 6b cd 00 6b 6b 6b 6b 6b 6b e1 00 ..kkkk..kkkkkk..\n[   99.408458] Object f2751980: e0 00 e4 00 6b 6b 74 01 73 00 72 00 71 00 94 00 ....kkt.s.r.q...\n[   99.408460] Object f2751990: 6b 6b 6b 6b f8 00 6b 6b 6b 6b 6b 6b 6b 6b 6b a5 kkkk..kkkkkkkkk.\n[   99.408462] Redzone f27519a0: bb bb bb bb ....\n" =
    .ok ([], some c!"__slab_alloc.isra.50.constprop.56", some c!"sysenter_do_call", 14, 0, 0, none, none) := by decide +kernel
-- tests/kerneloopses/gitlog-09
example : summary c!"===============================\n[ INFO: suspicious RCU usage. ]\n3.4.0 #3275 Tainted: G        W\n-------------------------------\ninclude/linux/rcupdate.h:729 rcu_read_lock() used illegally while idle!\n\nother info that might help us debug this:\n\nRCU used illegally from idle CPU!\nrcu_scheduler_active = 1, debug_locks = 0\nRCU used illegally from extended quiescent state!\n4 locks held by swapper/2/0:\n #0:  ((cpu_died).wait.lock){......}, at: [<c00ab128>] complete+0x1c/0x5c\n #1:  (&p->pi_lock){-.-.-.}, at: [<c00b275c>] try_to_wake_up+0x2c/0x388\n #2:  (&rq->lock){-.-.-.}, at: [<c00b2860>] try_to_wake_up+0x130/0x388\n #3:  (rcu_read_lock){.+.+..}, at: [<c00abe5c>] cpuacct_charge+0x28/0x1f4\n\nstack backtrace:\n[<c001521c>] (unwind_backtrace+0x0/0x12c) from [<c00abec8>] (cpuacct_charge+0x94/0x1f4)\n[<c00abec8>] (cpuacct_charge+0x94/0x1f4) from [<c00b395c>] (update_curr+0x24c/0x2c8)\n[<c00b395c>] (update_curr+0x24c/0x2c8) from [<c00b59c4>] (enqueue_task_fair+0x50/0x194)\n[<c00b59c4>] (enqueue_task_fair+0x50/0x194) from [<c00afea4>] (enqueue_task+0x30/0x34)\n[<c00afea4>] (enqueue_task+0x30/0x34) from [<c00b0908>] (ttwu_activate+0x14/0x38)\n[<c00b0908>] (ttwu_activate+0x14/0x38) from [<c00b28a8>] (try_to_wake_up+0x178/0x388)\n[<c00b28a8>] (try_to_wake_up+0x178/0x388) from [<c00a82a0>] (__wake_up_common+0x34/0x78)\n[<c00a82a0>] (__wake_up_common+0x34/0x78) from [<c00ab154>] (complete+0x48/0x5c)\n[<c00ab154>] (complete+0x48/0x5c) from [<c07db7cc>] (cpu_die+0x2c/0x58)\n[<c07db7cc>] (cpu_die+0x2c/0x58) from [<c000f954>] (cpu_idle+0x64/0xfc)\n[<c000f954>] (cpu_idle+0x64/0xfc) from [<80208160>] (0x80208160)\n" =
    .ok ([], some c!"unwind_backtrace", some c!"cpu_idle", 11, 1, 0, none, none) := by decide +kernel
-- tests/kerneloopses/gitlog-10
example : summary c!"============================================\n INFO: possible recursive locking detected ]\n.4.4-Cavium-Octeon+ #313 Not tainted\n--------------------------------------------\nworker/u:1/36 is trying to acquire lock:\n&bus->mdio_lock){+.+...}, at: [<ffffffff813da7e8>] mdio_mux_read+0x38/0xa0\n\nut task is already holding lock:\n(&bus->mdio_lock){+.+...}, at: [<ffffffff813d79e4>] mdiobus_read+0x44/0x88\n\nther info that might help us debug this:\nPossible unsafe locking scenario:\n\n      CPU0\n      ----\n lock(&bus->mdio_lock);\n lock(&bus->mdio_lock);\n\n*** DEADLOCK ***\n\nMay be due to missing lock nesting notation\n" =
    .ok ([], none, none, 0, 0, 0, none, none) := by decide +kernel
-- tests/kerneloopses/gitlog-12
example : summary c!"=============================================\n[ INFO: possible recursive locking detected ]\n3.4.0 #3257 Tainted: G        W\n---------------------------------------------\nswapper/0/1 is trying to acquire lock:\n (&rdev->mutex){+.+.+.}, at: [<c036e9e0>] regulator_get_voltage+0x18/0x38\n\nbut task is already holding lock:\n (&rdev->mutex){+.+.+.}, at: [<c036ef38>] regulator_set_optimum_mode+0x24/0x224\n\nother info that might help us debug this:\n Possible unsafe locking scenario:\n\n       CPU0\n       ----\n  lock(&rdev->mutex);\n  lock(&rdev->mutex);\n\n *** DEADLOCK ***\n\n May be due to missing lock nesting notation\n\n3 locks held by swapper/0/1:\n #0:  (&__lockdep_no_validate__){......}, at: [<c03dbb48>] __driver_attach+0x40/0x8c\n #1:  (&__lockdep_no_validate__){......}, at: [<c03dbb58>] __driver_attach+0x50/0x8c\n #2:  (&rdev->mutex){+.+.+.}, at: [<c036ef38>] regulator_set_optimum_mode+0x24/0x224\n\nstack backtrace:\n[<c001521c>] (unwind_backtrace+0x0/0x12c) from [<c00cc4d4>] (validate_chain+0x760/0x1080)\n[<c00cc4d4>] (validate_chain+0x760/0x1080) from [<c00cd744>] (__lock_acquire+0x950/0xa10)\n[<c00cd744>] (__lock_acquire+0x950/0xa10) from [<c00cd990>] (lock_acquire+0x18c/0x1e8)\n[<c00cd990>] (lock_acquire+0x18c/0x1e8) from [<c080c248>] (mutex_lock_nested+0x68/0x3c4)\n[<c080c248>] (mutex_lock_nested+0x68/0x3c4) from [<c036e9e0>] (regulator_get_voltage+0x18/0x38)\n[<c036e9e0>] (regulator_get_voltage+0x18/0x38) from [<c036efb8>] (regulator_set_optimum_mode+0xa4/0x224)\n" =
    .ok ([], some c!"unwind_backtrace", some c!"regulator_get_voltage", 6, 1, 0, none, none) := by decide +kernel
-- tests/kerneloopses/rhbz-865695-0
example : summary c!"kernel BUG at include/net/cfg80211.h:2473!\ninvalid opcode: 0000 [#1] SMP \nModules linked in: lockd sunrpc rfcomm bnep ip6t_REJECT nf_conntrack_ipv6 nf_defrag_ipv6 ip6table_filter ip6_tables nf_conntrack_ipv4 nf_defrag_ipv4 xt_state nf_conntrack iTCO_wdt iTCO_vendor_support hp_wmi sparse_keymap btusb uvcvideo videobuf2_vmalloc videobuf2_memops videobuf2_core bluetooth videodev media snd_hda_codec_idt snd_hda_intel snd_hda_codec snd_hwdep snd_seq coretemp microcode snd_seq_device serio_raw lib80211_crypt_tkip snd_pcm lpc_ich mfd_core wl(PO) crystalhd(C) snd_page_alloc atl1c cfg80211 snd_timer snd rfkill soundcore lib80211 uinput wmi i915 video i2c_algo_bit drm_kms_helper drm i2c_core\nPid: 598, comm: wpa_supplicant Tainted: P         C O 3.6.1-1.fc17.i686.PAE #1 Hewlett-Packard HP Mini 110-1100/308F\nEIP: 0060:[<f8e40765>] EFLAGS: 00210246 CPU: 1\nEIP is at wdev_priv.part.8+0x3/0x5 [wl]\nEAX: 00000000 EBX: f3cf6120 ECX: f8fc05a0 EDX: f3e16400\nESI: f3e16400 EDI: f3cf6120 EBP: f180dbf8 ESP: f180dbf8\n DS: 007b ES: 007b FS: 00d8 GS: 00e0 SS: 0068\nCR0: 80050033 CR2: 099db264 CR3: 322aa000 CR4: 000007f0\nDR0: 00000000 DR1: 00000000 DR2: 00000000 DR3: 00000000\nDR6: ffff0ff0 DR7: 00000400\nProcess wpa_supplicant (pid: 598, ti=f180c000 task=f2388000 task.ti=f180c000)\nStack:\n f180dc28 f8e3dde1 f180dc10 c09705a8 f8034728 00000119 f8034728 000080d0\n f3e16400 f47c1600 00000000 f3cf6120 f180dc5c f8034a38 ffffffff 00000033\n 00000003 f47c1600 f3cf6120 f3cf6000 f180dc88 f3e16400 f8043220 f8043640\nCall Trace:\n [<f8e3dde1>] wl_cfg80211_scan+0x411/0x4a0 [wl]\n [<c09705a8>] ? mutex_lock+0x18/0x40\n [<f8034728>] ? nl80211_trigger_scan+0xc8/0x560 [cfg80211]\n [<f8034728>] ? nl80211_trigger_scan+0xc8/0x560 [cfg80211]\n [<f8034a38>] nl80211_trigger_scan+0x3d8/0x560 [cfg80211]\n [<f802c210>] ? __cfg80211_rdev_from_attrs+0x170/0x170 [cfg80211]\n [<c08a5595>] genl_rcv_msg+0x225/0x280\n [<c08a5370>] ? genl_rcv+0x30/0x30\n [<c08a4f26>] netlink_rcv_skb+0x86/0xa0\n [<c08a535c>] genl_rcv+0x1c/0x30\n [<c08a48f4>] netlink_unicast+0x164/0x1e0\n [<c08a4b89>] netlink_sendmsg+0x219/0x370\n [<c086cf74>] sock_sendmsg+0xa4/0xd0\n [<c050aff8>] ? get_page_from_freelist+0x358/0x590\n [<c086ded9>] __sys_sendmsg+0x299/0x2b0\n [<c054f427>] ? mem_cgroup_charge_common+0x97/0x100\n [<c050f85a>] ? lru_cache_add_lru+0x7a/0xa0\n [<c0444bdd>] ? __kunmap_atomic+0x8d/0xe0\n [<c0527754>] ? handle_pte_fault+0x4b4/0xad0\n [<c047bb05>] ? scheduler_tick+0xd5/0x100\n [<c0528e6d>] ? handle_mm_fault+0x1dd/0x280\n [<c086f1ab>] sys_sendmsg+0x3b/0x60\n [<c086f843>] sys_socketcall+0x273/0x2d0\n [<c09793df>] sysenter_do_call+0x12/0x28\nCode: d0 e8 10 20 b3 c7 89 f0 e8 d9 85 ff ff 89 d8 e8 a2 cc 85 c7 31 d2 89 f8 e8 89 2b 91 c7 58 5b 5e 5f 5d c3 55 89 e5 0f 0b 55 89 e5 <0f> 0b 55 89 e5 3e 8d 74 26 00 0f 0b 55 89 e5 3e 8d 74 26 00 0f\nEIP: [<f8e40765>] wdev_priv.part.8+0x3/0x5 [wl] SS:ESP 0068:f180dbf8\n" =
    .ok ([], some c!"wdev_priv.part.8", some c!"sysenter_do_call", 25, 3, 56, none, none) := by decide +kernel
-- tests/kerneloopses/rhbz-1040900-s390x-1
example : summary c!"[16164.389384] will_oops: module verification failed: signature and/or required key missing - tainting kernel\n[16164.389552] will_oops loadedThis kernel oops is brought to you by will_oops.\n[16164.389572] ------------[ cut here ]------------\n[16164.389575] WARNING: at /tmp/will_oops.VBwBJthHLD/will_oops.c:11\n[16164.389576] Modules linked in: will_oops(OF+) sg qeth_l2 vmur nfsd auth_rpcgss nfs_acl lockd sunrpc xfs libcrc32c dasd_fba_mod dasd_eckd_mod dasd_mod lcs qeth ctcm qdio ccwgroup fsm dm_mirror dm_region_hash dm_log dm_mod\n[16164.389606] CPU: 0 PID: 32037 Comm: insmod Tainted: GF          O--------------   3.10.0-54.0.1.el7.s390x #1\n[16164.389610] task: 000000007ffa9998 ti: 0000000059e1c000 task.ti: 0000000059e1c000\n[16164.389614] Krnl PSW : 0704f00180000000 000003ff8086d03a (will_oops_init+0x3a/0x1000 [will_oops])\n[16164.389625]            R:0 T:1 IO:1 EX:1 Key:0 M:1 W:0 P:0 AS:3 CC:3 PM:0 EA:3\nKrnl GPRS: 0000000000010000 070000000020db8e 0000000000000030 00000000000000d7\n[16164.389635]            000003ff8086d036 0400000000000000 0000000000000000 000003ff00000000\n[16164.398601]            000003ff8086d000 000003ff8086a228 000003ff8086a050 000003ff8086d000\n[16164.398605]            0000000000000000 00000000005e9fa8 000003ff8086d036 0000000059e1fc68\n[16164.398615] Krnl Code: 000003ff8086d02a: c020ffffe006        larl    %r2,3ff80869036\n           000003ff8086d030: c0e5ffffd7ec       brasl   %r14,3ff80868008\n          #000003ff8086d036: a7f40001           brc     15,3ff8086d038\n          >000003ff8086d03a: a7290000           lghi    %r2,0\n           000003ff8086d03e: ebeff0a00004       lmg     %r14,%r15,160(%r15)\n           000003ff8086d044: 07fe               bcr     15,%r14\n           000003ff8086d046: 0707               bcr     0,%r7\n           000003ff8086d048: 0000               unknown\n[16164.398666] Call Trace:\n[16164.398670] ([<000003ff8086d036>] will_oops_init+0x36/0x1000 [will_oops])\n[16164.398685]  [<000000000010014e>] do_one_initcall+0xce/0x160\n[16164.398692]  [<00000000001ab224>] load_module+0x1414/0x19f4\n[16164.398699]  [<00000000001ab9b2>] SyS_finit_module+0x8e/0xc4\n[16164.400545]  [<00000000005db6f4>] sysc_tracego+0x14/0x1a\n[16164.400552]  [<000003fffd4a1d92>] 0x3fffd4a1d92\n[16164.400586] Last Breaking-Event-Address:\n[16164.400588]  [<000003ff8086d036>] will_oops_init+0x36/0x1000 [will_oops]\n[16164.400600] ---[ end trace 4e37b1eb61ae9844 ]---\n\n" =
    .ok ([], some c!"will_oops_init", none, 6, 2, 24, none, none) := by decide +kernel
-- tests/kerneloopses/rhbz-1040900-s390x-2
example : summary c!"kernel BUG at drivers/scsi/scsi_lib.c:660!\nillegal operation: 0001 [#1] SMP\nModules linked in: foo blah\nCPU: 0 PID: 10721 Comm: systemd-udevd Not tainted 3.69.69-69.0.fit.s390x #1\ntask: 000000006d639110 ti: 000000006ef48000 task.ti: 000000006ef48000\nKrnl PSW : 0404c00180000000 0000000000431f8e (scsi_alloc_sgtable+0x62/0x7c)\n           R:0 T:1 IO:0 EX:0 Key:0 M:1 W:0 P:0 AS:3 CC:0 PM:0 EA:3\\x0aKrnl GPRS: 000000000c7fff88 000000006ad08600 000000006e8e2078 0000000000000000\n           0000000000000020 0000000000000000 0000000000001000 000000000c7fff80\n           0000000000000000 000000006e8e2078 0000000000000020 0000000000000000\n           000000006e8e2078 000000006ad09200 000000006ef4b8b0 000000006ef4b858\nKrnl Code: 0000000000433f82: eb6ff0a00004\\x09lmg\\x09%r8,%r15,160(%r15)\\x0a           0000000000431f88: 00f7\\x08\\x08acr\\x0915,%r4\\x0a          #0000000000431f8a: a7f88781\\x09\\x09brc\\x0915,431f8c\\x0a          >0000000000431f8e: b904002c\\x09\\x09lgr\\x09%r2,%r12\\x0a           0000000000431f92: a7390080\\x09\\x09lghi\\x09%r3,128\\x0a           0000000000431f96: c040fffff95f\\x09larl\\x09%r4,431254\\x0a           0000000000431f9c: c0e5fffc7c48\\x09brasl\\x09%r14,3c182c\\x0a           0000000000431fa2: a7f4ffeb\\x09\\x09brc\\x0915,431f78\nCall Trace:\n([<00000000027f8000>] 0x27f8000)\n [<0000000000432114>] scsi_init_io+0xdc/0x184\n [<000003ff808bd352>] sd_prep_fn+0xfa/0xd1c [sd_mod]\n [<00000000003813e4>] blk_peek_request+0xfc/0x25c\n [<000000000043250c>] scsi_request_fn+0x64/0x620\n [<000000000037abaa>] __blk_run_queue+0x52/0x68\n [<000000000037d416>] queue_unplugged+0x42/0xbc\n [<000000000038191c>] blk_flush_plug_list+0x24c/0x2cc\n [<0000000000381dc0>] blk_finish_plug+0x2c/0x58\n [<000000000021cfcc>] __do_page_cache_readahead+0x1f4/0x294\n [<000000000021d724>] force_page_cache_readahead+0xbc/0x114\n [<0000000000210ee2>] generic_file_aio_read+0x5c2/0x844\n [<000000000028259e>] do_sync_read+0x86/0xc0\n [<0000000000282caa>] vfs_read+0x82/0x17c\n [<000000000028390a>] SyS_read+0x5e/0xac\n [<00000000005db5cc>] sysc_nr_ok+0x22/0x28\n [<0000004e15e926dc>] 0x4e15e926dc\nLast Breaking-Event-Address:\n [<0000000000431f8a>] scsi_alloc_sgtable+0x5e/0x7c\n" =
    .ok ([], none, none, 17, 0, 2, none, none) := by decide +kernel
-- tests/kerneloopses/rhbz-1040900-ppc64-1
example : summary c!"WARNING: at arch/powerpc/platforms/pseries/eeh.c:390\nModules linked in: dm_service_time sd_mod crc_t10dif ibmvfc scsi_transport_fc scsi_tgt ipr(+) libata dm_mirror dm_region_hash dm_log dm_multipath dm_mod\nCPU: 1 PID: 191 Comm: systemd-udevd Not tainted 3.10.0-33.el7.ppc64 #1\ntask: c000000010d4ec70 ti: c000000010f90000 task.ti: c000000010f90000\nNIP: c000000008068dfc LR: c000000008068df8 CTR: 00000000015c6170\nREGS: c000000010f92e30 TRAP: 0700 Not tainted (3.10.0-33.el7.ppc64)\nMSR: 8000000000029032 CR: 48228222 XER: 00000006\nSOFTE: 0\nCFAR: c00000000873b7c0\nGPR00: c000000008068df8 c000000010f930b0 c0000000091380e0 0000000000000015\nGPR04: 0000000000000000 0000000000000000 c000000008b030f8 c00000000a122548\nGPR08: c000000008af80e0 0000000000000000 0000000001630000 0000000000000000\nGPR12: 0000000028228222 c00000000ec50400 c00000000900fcc0 0000000000020000\nGPR16: 000000000000fff1 c0000000090669f8 0000000000000000 d000000000900000\nGPR20: d000000000900000 d0000000008dd618 c000000010f93bf0 0000000000000000\nGPR24: 0000000000000030 0000000000000000 0000000000000000 c00000000931f0c0\nGPR28: c000000027ffc858 c00000002669b000 c00000000931f0b8 c000000026083960\nNIP [c000000008068dfc] .eeh_dev_check_failure+0x27c/0x390\nLR [c000000008068df8] .eeh_dev_check_failure+0x278/0x390\nPACATMSCRATCH [800000000280f032]\nCall Trace:\n[c000000010f930b0] [c000000008068df8] .eeh_dev_check_failure+0x278/0x390 (unreliable)\n[c000000010f93150] [c000000008028668] .rtas_read_config+0x128/0x170\n[c000000010f931f0] [c0000000084089d8] .pci_bus_read_config_word+0xa8/0xf0\n[c000000010f932a0] [c000000008414518] .pci_enable_device_flags+0x88/0x170\n[c000000010f93340] [d0000000008c991c] .ipr_probe_ioa+0x6c/0x1390 [ipr]\n[c000000010f93470] [d0000000008d308c] .ipr_probe+0x2c/0x520 [ipr]\n[c000000010f93540] [c000000008416be0] .local_pci_probe+0x60/0xb0\n[c000000010f935d0] [c000000008416ec8] .pci_device_probe+0x198/0x1a0\n[c000000010f93680] [c0000000084b00b0] .driver_probe_device+0xd0/0x440\n[c000000010f93710] [c0000000084b05ac] .driver_attach+0xfc/0x100\n[c000000010f937a0] [c0000000084ad384] .bus_for_each_dev+0x84/0xf0\n[c000000010f93840] [c0000000084af894] .driver_attach+0x24/0x40\n[c000000010f938b0] [c0000000084af268] .bus_add_driver+0x288/0x380\n[c000000010f93950] [c0000000084b0f24] .driver_register+0x94/0x200\n[c000000010f939e0] [c000000008416964] .pci_register_driver+0x44/0x60\n[c000000010f93a50] [d0000000008d3b64] .ipr_init+0x5c/0x74 [ipr]\n[c000000010f93ad0] [c00000000800b8c4] .do_one_initcall+0x154/0x200\n[c000000010f93b80] [c00000000810abdc] .load_module+0x10ac/0x14c0\n[c000000010f93d40] [c00000000810b1f0] .SyS_finit_module+0xb0/0x100\n[c000000010f93e30] [c000000008009ed4] syscall_exit+0x0/0x98\nInstruction dump:\n60000000 7f44d378 7f63db78 486c7eb9 60000000 7fe3fb78 48002d4d 60000000\n3c62ff84 38635108 486d2951 60000000 38600001 4bfffe00 60000000\n" =
    .ok ([], some c!"eeh_dev_check_failure", some c!"syscall_exit", 20, 0, 13, none, none) := by decide +kernel
-- tests/kerneloopses/github-102
example : summary c!"WARNING: at include/linux/mm.h:283 putback_inactive_pages+0x2cc/0x360()\nModules linked in: vboxpci(OF) vboxnetadp(OF) vboxnetflt(OF) vboxdrv(OF) fuse ebtable_nat ipt_MASQUERADE nf_conntrack_netbios_ns nf_conntrack_broadcast bnep bluetooth rfkill ip6table_mangle ip6t_REJECT nf_conntrack_ipv6 nf_defrag_ipv6 iptable_nat nf_nat_ipv4 nf_nat iptable_mangle nf_conntrack_ipv4 nf_defrag_ipv4 xt_conntrack nf_conntrack ebtable_filter ebtables ip6table_filter ip6_tables be2iscsi iscsi_boot_sysfs bnx2i cnic uio cxgb4i cxgb4 cxgb3i cxgb3 mdio libcxgbi ib_iser rdma_cm ib_addr iw_cm ib_cm ib_sa ib_mad ib_core iscsi_tcp libiscsi_tcp libiscsi scsi_transport_iscsi snd_hda_codec_hdmi snd_usb_audio snd_hda_codec_realtek snd_usbmidi_lib snd_hda_intel snd_hda_codec uvcvideo snd_rawmidi snd_hwdep snd_seq snd_seq_device snd_pcm snd_page_alloc snd_timer iTCO_wdt videobuf2_vmalloc videobuf2_memops fglrx(POF) acpi_cpufreq mperf coretemp videobuf2_core\n videodev joydev iTCO_vendor_support snd ppdev hid_logitech_dj i2c_i801 media i2c_core lpc_ich mfd_core parport_pc parport amd_iommu_v2 microcode serio_raw soundcore vhost_net tun macvtap macvlan kvm_intel kvm binfmt_misc uinput ata_generic pata_acpi r8169 mii pata_jmicron sunrpc\nCPU: 1 PID: 42 Comm: kswapd0 Tainted: PF   B   WC O 3.10.4-100.fc18.x86_64 #1\nHardware name: Gigabyte Technology Co., Ltd. EP45-UD3L/EP45-UD3L, BIOS F4 02/24/2009\n 0000000000000009 ffff88022259da58 ffffffff816606a8 ffff88022259da98\n ffffffff8105d660 ffff88022259dba0 ffff880227014410 ffff88022259dba8\n 0000000000000000 ffffea0004018020 0000000000000200 ffff88022259daa8\nCall Trace:\n [<ffffffff816606a8>] dump_stack+0x19/0x1b\n [<ffffffff8105d660>] warn_slowpath_common+0x70/0xa0\n [<ffffffff8105d6aa>] warn_slowpath_null+0x1a/0x20\n [<ffffffff8114545c>] putback_inactive_pages+0x2cc/0x360\n [<ffffffff8114567b>] shrink_inactive_list+0x18b/0x410\n [<ffffffff81145e91>] shrink_lruvec+0x231/0x4f0\n [<ffffffff8119fdc2>] ? drop_super+0x22/0x30\n [<ffffffff811461b6>] shrink_zone+0x66/0x1a0\n [<ffffffff811474fc>] balance_pgdat+0x48c/0x5c0\n [<ffffffff811477a4>] kswapd+0x174/0x440\n [<ffffffff81083260>] ? wake_up_bit+0x40/0x40\n [<ffffffff81147630>] ? balance_pgdat+0x5c0/0x5c0\n [<ffffffff81082a80>] kthread+0xc0/0xd0\n [<ffffffff81010000>] ? perf_trace_xen_mmu_flush_tlb_others+0xa0/0x110\n [<ffffffff810829c0>] ? kthread_create_on_node+0x120/0x120\n [<ffffffff8166ec6c>] ret_from_fork+0x7c/0xb0\n [<ffffffff810829c0>] ? kthread_create_on_node+0x120/0x120\n" =
    .ok ([], some c!"dump_stack", some c!"kthread_create_on_node", 17, 6, 104, none, none) := by decide +kernel
-- tests/kerneloopses/github-73
example : summary c!"WARNING: at net/ipv4/tcp_input.c:2776 tcp_fastretrans_alert+0xc7a/0xd10()\nModules linked in: fuse ebtable_nat ipt_MASQUERADE rfcomm nf_conntrack_netbios_ns nf_conntrack_broadcast ip6table_mangle ip6t_REJECT nf_conntrack_ipv6 nf_defrag_ipv6 iptable_nat nf_nat_ipv4 nf_nat iptable_mangle nf_conntrack_ipv4 nf_defrag_ipv4 xt_conntrack nf_conntrack ebtable_filter ebtables ip6table_filter ip6_tables bnep be2iscsi iscsi_boot_sysfs bnx2i cnic uio cxgb4i cxgb4 cxgb3i cxgb3 mdio libcxgbi ib_iser rdma_cm ib_addr iw_cm ib_cm ib_sa ib_mad ib_core iscsi_tcp libiscsi_tcp libiscsi scsi_transport_iscsi arc4 rt2800pci rt2800lib rt2x00pci snd_hda_codec_hdmi snd_hda_codec_idt rt2x00mmio rt2x00lib eeprom_93cx6 uvcvideo btusb mac80211 snd_hda_intel snd_hda_codec hp_wmi iTCO_wdt iTCO_vendor_support bluetooth acpi_cpufreq mperf cfg80211 coretemp crc_ccitt sparse_keymap snd_hwdep snd_seq snd_seq_device snd_pcm snd_page_alloc snd_timer snd rfkill r8169 mii lpc_ich mfd_core videobuf2_vmalloc videobuf2_memops videobuf2_core videodev media soundcore serio_raw microcode kvm uinput binfmt_misc i915 i2c_algo_bit drm_kms_helper drm i2c_core wmi video\nCPU: 1 PID: 1797 Comm: amule Not tainted 3.10.11-100.fc18.x86_64 #1\nHardware name: Hewlett-Packard HP 620/1526, BIOS 68PVI Ver. F.0A 02/10/2011\n 0000000000000009 ffff88013fc83778 ffffffff81656735 ffff88013fc837b8\n ffffffff8105d670 ffff8801215fc270 ffff8801215fbf00 0000000000004120\n 0000000000000001 0000000000000000 0000000000000009 ffff88013fc837c8\nCall Trace:\n <IRQ>  [<ffffffff81656735>] dump_stack+0x19/0x1b\n [<ffffffff8105d670>] warn_slowpath_common+0x70/0xa0\n [<ffffffff8105d6ba>] warn_slowpath_null+0x1a/0x20\n [<ffffffff8159d19a>] tcp_fastretrans_alert+0xc7a/0xd10\n [<ffffffff8153f53f>] ? __kfree_skb+0x3f/0xa0\n [<ffffffff8159dd18>] tcp_ack+0x9d8/0xec0\n [<ffffffff8159e812>] tcp_rcv_established+0x292/0x8d0\n [<ffffffff815a8bc4>] tcp_v4_do_rcv+0x2b4/0x4a0\n [<ffffffff815aab45>] tcp_v4_rcv+0x685/0x7d0\n [<ffffffff815848e0>] ? ip_rcv_finish+0x340/0x340\n [<ffffffff8157ba14>] ? nf_hook_slow+0x74/0x130\n [<ffffffff815848e0>] ? ip_rcv_finish+0x340/0x340\n [<ffffffff815849b0>] ip_local_deliver_finish+0xd0/0x230\n [<ffffffff81584ca7>] ip_local_deliver+0x47/0x80\n [<ffffffff81584620>] ip_rcv_finish+0x80/0x340\n [<ffffffff81584f19>] ip_rcv+0x239/0x390\n [<ffffffff8154c8e2>] __netif_receive_skb_core+0x682/0x7f0\n [<ffffffff8154ca71>] __netif_receive_skb+0x21/0x70\n [<ffffffff8154cc73>] netif_receive_skb+0x33/0xb0\n [<ffffffffa03c9273>] ieee80211_deliver_skb.isra.30+0xa3/0x210 [mac80211]\n [<ffffffffa03ca531>] ieee80211_rx_handlers+0xb81/0x2330 [mac80211]\n [<ffffffff815402fc>] ? __alloc_skb+0x7c/0x290\n [<ffffffffa03cbe78>] ieee80211_prepare_and_rx_handle+0x198/0xaf0 [mac80211]\n [<ffffffffa03ccacd>] ieee80211_rx+0x2fd/0x880 [mac80211]\n [<ffffffffa0455c39>] rt2x00lib_rxdone+0x2a9/0x5b0 [rt2x00lib]\n [<ffffffff81091279>] ? scheduler_tick+0x109/0x140\n [<ffffffffa03120c6>] rt2x00mmio_rxdone+0x86/0xc0 [rt2x00mmio]\n [<ffffffffa044ff36>] rt2800pci_rxdone_tasklet+0x16/0x90 [rt2800pci]\n [<ffffffff81065f4a>] tasklet_action+0x6a/0xe0\n [<ffffffff81065ab8>] __do_softirq+0xe8/0x230\n [<ffffffff81065d95>] irq_exit+0xb5/0xc0\n [<ffffffff81666a63>] do_IRQ+0x63/0xe0\n [<ffffffff8165c86d>] common_interrupt+0x6d/0x6d\n <EOI>\n" =
    .ok ([], some c!"dump_stack", some c!"common_interrupt", 33, 0, 100, some c!"IRQ", some c!"IRQ") := by decide +kernel
-- tests/kerneloopses/github-73-modified
example : summary c!"WARNING: at net/ipv4/tcp_input.c:2776 tcp_fastretrans_alert+0xc7a/0xd10()\nModules linked in: fuse ebtable_nat ipt_MASQUERADE rfcomm nf_conntrack_netbios_ns nf_conntrack_broadcast ip6table_mangle ip6t_REJECT nf_conntrack_ipv6 nf_defrag_ipv6 iptable_nat nf_nat_ipv4 nf_nat iptable_mangle nf_conntrack_ipv4 nf_defrag_ipv4 xt_conntrack nf_conntrack ebtable_filter ebtables ip6table_filter ip6_tables bnep be2iscsi iscsi_boot_sysfs bnx2i cnic uio cxgb4i cxgb4 cxgb3i cxgb3 mdio libcxgbi ib_iser rdma_cm ib_addr iw_cm ib_cm ib_sa ib_mad ib_core iscsi_tcp libiscsi_tcp libiscsi scsi_transport_iscsi arc4 rt2800pci rt2800lib rt2x00pci snd_hda_codec_hdmi snd_hda_codec_idt rt2x00mmio rt2x00lib eeprom_93cx6 uvcvideo btusb mac80211 snd_hda_intel snd_hda_codec hp_wmi iTCO_wdt iTCO_vendor_support bluetooth acpi_cpufreq mperf cfg80211 coretemp crc_ccitt sparse_keymap snd_hwdep snd_seq snd_seq_device snd_pcm snd_page_alloc snd_timer snd rfkill r8169 mii lpc_ich mfd_core videobuf2_vmalloc videobuf2_memops videobuf2_core videodev media soundcore serio_raw microcode kvm uinput binfmt_misc i915 i2c_algo_bit drm_kms_helper drm i2c_core wmi video\nCPU: 1 PID: 1797 Comm: amule Not tainted 3.10.11-100.fc18.x86_64 #1\nHardware name: Hewlett-Packard HP 620/1526, BIOS 68PVI Ver. F.0A 02/10/2011\n 0000000000000009 ffff88013fc83778 ffffffff81656735 ffff88013fc837b8\n ffffffff8105d670 ffff8801215fc270 ffff8801215fbf00 0000000000004120\n 0000000000000001 0000000000000000 0000000000000009 ffff88013fc837c8\nCall Trace:\n <NMI>  [<ffffffff81656735>] dump_stack+0x19/0x1b\n [<ffffffff8105d670>] warn_slowpath_common+0x70/0xa0\n [<ffffffff8105d6ba>] warn_slowpath_null+0x1a/0x20\n [<ffffffff8159d19a>] tcp_fastretrans_alert+0xc7a/0xd10\n [<ffffffff8153f53f>] ? __kfree_skb+0x3f/0xa0\n [<ffffffff8159dd18>] tcp_ack+0x9d8/0xec0\n [<ffffffff8159e812>] tcp_rcv_established+0x292/0x8d0\n [<ffffffff815a8bc4>] tcp_v4_do_rcv+0x2b4/0x4a0\n [<ffffffff815aab45>] tcp_v4_rcv+0x685/0x7d0\n [<ffffffff815848e0>] ? ip_rcv_finish+0x340/0x340\n [<ffffffff8157ba14>] ? nf_hook_slow+0x74/0x130\n [<ffffffff815848e0>] ? ip_rcv_finish+0x340/0x340\n [<ffffffff815849b0>] ip_local_deliver_finish+0xd0/0x230\n <<EOE>> <IRQ>  [<ffffffff81584ca7>] ip_local_deliver+0x47/0x80\n [<ffffffff81584620>] ip_rcv_finish+0x80/0x340\n [<ffffffff81584f19>] ip_rcv+0x239/0x390\n [<ffffffff8154c8e2>] __netif_receive_skb_core+0x682/0x7f0\n [<ffffffff8154ca71>] __netif_receive_skb+0x21/0x70\n [<ffffffff8154cc73>] netif_receive_skb+0x33/0xb0\n [<ffffffffa03c9273>] ieee80211_deliver_skb.isra.30+0xa3/0x210 [mac80211]\n [<ffffffffa03ca531>] ieee80211_rx_handlers+0xb81/0x2330 [mac80211]\n [<ffffffff815402fc>] ? __alloc_skb+0x7c/0x290\n [<ffffffffa03cbe78>] ieee80211_prepare_and_rx_handle+0x198/0xaf0 [mac80211]\n [<ffffffffa03ccacd>] ieee80211_rx+0x2fd/0x880 [mac80211]\n [<ffffffffa0455c39>] rt2x00lib_rxdone+0x2a9/0x5b0 [rt2x00lib]\n [<ffffffff81091279>] ? scheduler_tick+0x109/0x140\n [<ffffffffa03120c6>] rt2x00mmio_rxdone+0x86/0xc0 [rt2x00mmio]\n <EOI>  [<ffffffffa044ff36>] rt2800pci_rxdone_tasklet+0x16/0x90 [rt2800pci]\n [<ffffffff81065f4a>] tasklet_action+0x6a/0xe0\n [<ffffffff81065ab8>] __do_softirq+0xe8/0x230\n [<ffffffff81065d95>] irq_exit+0xb5/0xc0\n [<ffffffff81666a63>] do_IRQ+0x63/0xe0\n [<ffffffff8165c86d>] common_interrupt+0x6d/0x6d\n" =
    .ok ([], some c!"dump_stack", some c!"common_interrupt", 33, 0, 100, some c!"NMI", none) := by decide +kernel
-- tests/kerneloopses/arm-hung-task-oops
example : summary c!"Kernel panic - not syncing: hung_task: blocked tasks\nCPU: 3 PID: 27 Comm: khungtaskd Tainted: P           O    4.2.8-yocto-standard-1968fcd27440e21d39a0b9e14a3be2ad #1\nHardware name: Marvell Armada 370/XP (Device Tree)\nBacktrace: \n[<c0014318>] (dump_backtrace_log_lvl) from [<c001457c>] (show_stack+0x24/0x2c)\n r7:df912310 r6:df912140 r5:c081745c r4:00000000\n[<c0014558>] (show_stack) from [<c059798c>] (dump_stack+0x7c/0xc8)\n[<c0597910>] (dump_stack) from [<c05946f4>] (panic+0x98/0x218)\n r5:00000061 r4:c084cea8\n[<c0594660>] (panic) from [<c00a8d68>] (watchdog+0x368/0x3a8)\n r3:00000400 r2:00000000 r1:c08a49f8 r0:c06c0c43\n r7:df912310\n[<c00a8a00>] (watchdog) from [<c0044898>] (kthread+0xe8/0xfc)\n r10:00000000 r9:00000000 r8:00000000 r7:c00a8a00 r6:00000000 r5:00000000\n r4:edbd89c0\n[<c00447b0>] (kthread) from [<c0010428>] (ret_from_fork+0x14/0x2c)\n r7:00000000 r6:00000000 r5:c00447b0 r4:edbd89c0\n\n\nCurrent process: khungtaskd   pid=27\nRunning on CPU3 (4 online)\n\ncurrent=edb06180   preempt_count=0x1\n\nregs and stacktrace from uregs: edbf3fb0\nStacktrace initiated from showRegs()\nProcess: khungtaskd, pid:27\nstack trace:\n(00) 00000000 (ra=00000000) sp:00000000(00) 00000000\n\nDumping regs from edbf3fb0\nPC:00000000  LR:00000000  SP:00000000  IP:00000000  FP:00000000\nCPSR: 00000013\n\nR0:  00000000 00000000 00000000 00000000 00000000 00000000\nR6:  00000000 00000000 00000000 00000000 00000000\n\nNo MM assigned to process (pid: 27)\nCPU 2 will stop doing anything useful since another CPU has crashed\nCPU 1 will stop doing anything useful since another CPU has crashed\nCPU 0 will stop doing anything useful since another CPU has crashed\n" =
    .ok ([], some c!"dump_backtrace_log_lvl", some c!"kthread", 6, 2, 0, none, none) := by decide +kernel
-- tests/kerneloopses/rhbz-1518943
example : summary c!"BUG: kernel NULL pointer dereference, address: 0000000000000008\n#PF: supervisor read access in kernel mode\n#PF: error_code(0x0000) - not-present page\nPGD 0 P4D 0 \nOops: 0000 [#1] SMP NOPTI\nCPU: 1 PID: 1\n88243 Comm: QSGRenderThread Not tainted 5.3.6-300.fc31.x86_64 #1\nHardware name: System manufacturer System Product Name/TUF B450-PRO GAMING, BIOS 1816 09/02/2019\nRIP: 0010:amdgpu_vm_sdma_commit+0x46/0x120 [amdgpu]\nCode: 18 65 48 8b 04 2\n5 28 00 00 00 48 89 44 24 08 31 c0 48 8b 47 08 4c 8b a2 88 01 00 00 4c 8b a8 80 00 00 00 48 8b 80 c8 00 00 00 <4c> 8b 70 08 41 8b 44 24 08 4d 8d 7e 88 85 c0 0f 84 37 f9 1e 00 49\nRSP: 0018:ffffad85491579a8 EFLAGS: 00010246\nRAX: 0000000000000000 RBX: ffffad8549157b40 RCX: 0000000002888000\nRDX: ffff9caeb3c21400 RSI: 0000000000000000 RDI: ffffad8549157b40\nRBP: 0000000000000000 R08: 0000000000000001 R09: 0000000000001000\nR10: 00000000000000eb R11: 00000000000000e9 R12: ffff9caeb3c215f8\nR13: ffff9cae0e1ba800 R14: ffffad8549157b40 R15: 0000000000000000\nFS:  00007fd17b7fe700(0000) GS:ffff9caebe640000(0000) knlGS:0000000000000000\nCS:  0010 DS: 0000 ES: 0000 CR0: 0000000080050033\nCR2: 0000000000000008 CR3: 000000064e8e8000 CR4: 0000000000340ee0\nCall Trace:\n amdgpu_vm_sdma_update+0x17d/0x240 [amdgpu]\n ? amdgpu_vm_num_entries+0x1e/0x70 [amdgpu]\n amdgpu_vm_update_ptes+0x385/0x6b0 [amdgpu]\n amdgpu_vm_bo_update_mapping+0xb3/0xe0 [amdgpu]\n amdgpu_vm_clear_freed+0xcf/0x1a0 [amdgpu]\n amdgpu_gem_va_ioctl+0x42c/0x550 [amdgpu]\n ? amdgpu_gem_metadata_ioctl+0x190/0x190 [amdgpu]\n drm_ioctl_kernel+0xaa/0xf0 [drm]\n drm_ioctl+0x208/0x390 [drm]\n ? amdgpu_gem_metadata_ioctl+0x190/0x190 [amdgpu]\n ? pollwake+0x74/0x90\n amdgpu_drm_ioctl+0x49/0x80 [amdgpu]\n do_vfs_ioctl+0x405/0x660\n ksys_ioctl+0x5e/0x90\n __x64_sys_ioctl+0x16/0x20\n do_syscall_64+0x5f/0x1a0\n entry_SYSCALL_64_after_hwframe+0x44/0xa9\nRIP: 0033:0x7fd1f18192fb\nCode: 0f 1e fa 48 8b 05 8d 9b 0c 00 64 c7 00 26 00 00 00 48 c7 c0 ff ff ff ff c3 66 0f 1f 44 00 00 f3 0f 1e fa b8 10 00 00 00 0f 05 <48> 3d 01 f0 ff ff 73 01 c3 48 8b 0d 5d 9b 0c 00 f7 d8 64 89 01 48\nRSP: 002b:00007fd17b7fd798 EFLAGS: 00000246 ORIG_RAX: 0000000000000010\nRAX: ffffffffffffffda RBX: 00007fd17b7fd7e0 RCX: 00007fd1f18192fb\nRDX: 00007fd17b7fd7e0 RSI: 00000000c0286448 RDI: 000000000000000b\nRBP: 00000000c0286448 R08: 0000000103c00000 R09: 000000000000000e\nR10: 000000000000000c R11: 0000000000000246 R12: 0000000000000000\nR13: 000000000000000b R14: 0000000000000002 R15: 00005653a61e5a40\nModules linked in: fuse ip6t_REJECT nf_reject_ipv6 ip6t_rpfilter ipt_REJECT nf_reject_ipv4 xt_conntrack ebtable_nat ebtable_broute ip6table_nat ip6table_mangle ip6table_raw ip6table_security iptable_nat nf_nat iptable_mangle iptable_raw iptable_security nf_conntrack nf_defrag_ipv6 nf_defrag_ipv4 libcrc32c ip_set nfnetlink ebtable_filter ebtables ip6table_filter ip6_tables iptable_filter sunrpc vfat fat squashfs zstd_decompress loop edac_mce_amd kvm_amd snd_hda_codec_generic ledtrig_audio snd_hda_codec_hdmi snd_hda_intel snd_hda_codec snd_hda_core snd_hwdep kvm snd_seq snd_seq_device irqbypass snd_pcm eeepc_wmi asus_wmi sparse_keymap snd_timer rfkill crct10dif_pclmul raid1 crc32_pclmul joydev video snd wmi_bmof ghash_clmulni_intel sp5100_tco k10temp ccp i2c_piix4 soundcore gpio_amdpt gpio_generic acpi_cpufreq binfmt_misc ip_tables hid_logitech_hidpp amdgpu amd_iommu_v2 gpu_sched i2c_algo_bit ttm drm_kms_helper drm uas crc32c_intel r8169 usb_storage hid_logitech_dj wmi\n pinctrl_amd\nCR2: 0000000000000008\n" =
    .ok ([], some c!"amdgpu_vm_sdma_update", some c!"entry_SYSCALL_64_after_hwframe", 17, 0, 87, none, none) := by decide +kernel

/-- tests/kerneloopses/rhbz-827868-modified -/
def modified : Str := c!"[110417.280426] WARNING: at mm/page_alloc.c:2204 __alloc_pages_nodemask+0x231/0x8f0()\n[110417.280429] Hardware name: Latitude E6420\n[110417.280431] Modules linked in: vfat fat usb_storage authenc l2tp_ppp pppox ppp_generic slhc l2tp_netlink l2tp_core rmd160 crypto_null camellia lzo cast6 cast5 deflate zlib_deflate cts gcm ccm serpent_sse2_x86_64 serpent_generic blowfish_generic blowfish_x86_64 blowfish_common twofish_generic twofish_x86_64_3way lrw twofish_x86_64 twofish_common xcbc sha256_generic sha512_generic des_generic ah6 ah4 esp6 esp4 xfrm4_mode_beet xfrm4_tunnel tunnel4 xfrm4_mode_tunnel xfrm4_mode_transport xfrm6_mode_transport xfrm6_mode_ro xfrm6_mode_beet xfrm6_mode_tunnel ipcomp ipcomp6 xfrm_ipcomp xfrm6_tunnel tunnel6 af_key snd_usb_audio snd_usbmidi_lib snd_rawmidi sctp libcrc32c tcp_lp wacom fuse lockd rfcomm bnep snd_hda_codec_hdmi snd_hda_codec_idt binfmt_misc arc4 uvcvideo snd_hda_intel videobuf2_core videodev snd_hda_codec ppdev media dell_wmi videobuf2_vmalloc sparse_keymap videobuf2_memops dell_laptop snd_hwdep snd_seq uinput dcdbas snd_seq_device btusb bluetooth iwlwifi snd_pcm parport_pc \njoydev parport snd_timer microcode mac80211 snd soundcore snd_page_alloc i2c_i801 cfg80211 iTCO_wdt iTCO_vendor_support rfkill e1000e sunrpc xts gf128mul dm_crypt sdhci_pci sdhci mmc_core wmi i915 drm_kms_helper drm i2c_algo_bit i2c_core video [last unloaded: scsi_wait_scan]\n[110417.280525] Pid: 3, comm: ksoftirqd/0 Tainted: P    B D    O 3.3.7-1.fc16.x86_64 #1\n[110417.280528] Call Trace:\n[110417.280535]  [<ffffffff81057adf>] warn_slowpath_common+0x7f/0xc0\n[110417.280539]  [<ffffffff81057b3a>] warn_slowpath_null+0x1a/0x20\n[110417.280544]  [<ffffffff811296d1>] __alloc_pages_nodemask+0x231/0x8f0\n[110417.280550]  [<ffffffff8151fd80>] ? ip_copy_metadata+0x1c0/0x1c0\n[110417.280555]  [<ffffffff8151f860>] ? ip_forward_options+0x1f0/0x1f0\n[110417.280559]  [<ffffffff81160a93>] alloc_pages_current+0xa3/0x110\n[110417.280563]  [<ffffffff81125514>] __get_free_pages+0x14/0x50\n[110417.280569]  [<ffffffff8116bb5f>] kmalloc_order_trace+0x3f/0xd0\n[110417.280573]  [<ffffffff8116ca87>] __kmalloc+0x177/0x1a0\n[110417.280578]  [<ffffffffa0642332>] ? pppol2tp_xmit+0x42/0x220 [l2tp_ppp]\n[110417.280583]  [<ffffffff814db0a7>] pskb_expand_head+0x87/0x310\n[110417.280588]  [<ffffffff8113dc59>] ? __mod_zone_page_state+0x49/0x50\n[110417.280591]  [<ffffffff814da0f5>] ? kfree_skb+0x45/0xc0\n[110417.280595]  [<ffffffffa06424dd>] pppol2tp_xmit+0x1ed/0x220 [l2tp_ppp]\n[110417.280600]  [<ffffffffa062dd5b>] ppp_push+0x15b/0x650 [ppp_generic]\n[110417.280604]  [<ffffffff814db264>] ? pskb_expand_head+0x244/0x310\n[110417.280608]  [<ffffffff8112860b>] ? free_compound_page+0x1b/0x20\n[110417.280612]  [<ffffffff8112d053>] ? __put_compound_page+0x23/0x30\n[110417.280615]  [<ffffffff8112d1d5>] ? put_compound_page+0x125/0x1c0\n[110417.280619]  [<ffffffffa062e89f>] ppp_xmit_process+0x46f/0x660 [ppp_generic]\n[110417.280624]  [<ffffffffa062ebc8>] ppp_start_xmit+0x138/0x1d0 [ppp_generic]\n[110417.280628]  [<ffffffff814e85b2>] dev_hard_start_xmit+0x332/0x6d0\n[110417.280632]  [<ffffffff8150447a>] sch_direct_xmit+0xfa/0x1d0\n[110417.280635]  [<ffffffff815045f6>] __qdisc_run+0xa6/0x130\n[110417.280639]  [<ffffffff814e6883>] net_tx_action+0xe3/0x1f0\n[110417.280643]  [<ffffffff8105f0c8>] __do_softirq+0xb8/0x230\n[110417.280646]  [<ffffffff8105f2fa>] run_ksoftirqd+0xba/0x170\n[110417.280649]  [<ffffffff8105f240>] ? __do_softirq+0x230/0x230\n[110417.280654]  [<ffffffff81079da3>] kthread+0x93/0xa0\n[110417.280658]  [<ffffffff815fd8e4>] kernel_thread_helper+0x4/0x10\n[110417.280663]  [<ffffffff81079d10>] ? kthread_freezable_should_stop+0x70/0x70\n[110417.280666]  [<ffffffff815fd8e0>] ? gs_change+0x13/0x13\n"
/-- The JSON text of `test_koops_stacktrace_to_json` (tests/koops_stacktrace.c:221-685). -/
def modifiedJson : Str := c!"{   \"raw_oops\": \"[110417.280426] WARNING: at mm/page_alloc.c:2204 __alloc_pages_nodemask+0x231/0x8f0()\\n[110417.280429] Hardware name: Latitude E6420\\n[110417.280431] Modules linked in: vfat fat usb_storage authenc l2tp_ppp pppox ppp_generic slhc l2tp_netlink l2tp_core rmd160 crypto_null camellia lzo cast6 cast5 deflate zlib_deflate cts gcm ccm serpent_sse2_x86_64 serpent_generic blowfish_generic blowfish_x86_64 blowfish_common twofish_generic twofish_x86_64_3way lrw twofish_x86_64 twofish_common xcbc sha256_generic sha512_generic des_generic ah6 ah4 esp6 esp4 xfrm4_mode_beet xfrm4_tunnel tunnel4 xfrm4_mode_tunnel xfrm4_mode_transport xfrm6_mode_transport xfrm6_mode_ro xfrm6_mode_beet xfrm6_mode_tunnel ipcomp ipcomp6 xfrm_ipcomp xfrm6_tunnel tunnel6 af_key snd_usb_audio snd_usbmidi_lib snd_rawmidi sctp libcrc32c tcp_lp wacom fuse lockd rfcomm bnep snd_hda_codec_hdmi snd_hda_codec_idt binfmt_misc arc4 uvcvideo snd_hda_intel videobuf2_core videodev snd_hda_codec ppdev media dell_wmi videobuf2_vmalloc sparse_keymap videobuf2_memops dell_laptop snd_hwdep snd_seq uinput dcdbas snd_seq_device btusb bluetooth iwlwifi snd_pcm parport_pc \\njoydev parport snd_timer microcode mac80211 snd soundcore snd_page_alloc i2c_i801 cfg80211 iTCO_wdt iTCO_vendor_support rfkill e1000e sunrpc xts gf128mul dm_crypt sdhci_pci sdhci mmc_core wmi i915 drm_kms_helper drm i2c_algo_bit i2c_core video [last unloaded: scsi_wait_scan]\\n[110417.280525] Pid: 3, comm: ksoftirqd/0 Tainted: P    B D    O 3.3.7-1.fc16.x86_64 #1\\n[110417.280528] Call Trace:\\n[110417.280535]  [<ffffffff81057adf>] warn_slowpath_common+0x7f/0xc0\\n[110417.280539]  [<ffffffff81057b3a>] warn_slowpath_null+0x1a/0x20\\n[110417.280544]  [<ffffffff811296d1>] __alloc_pages_nodemask+0x231/0x8f0\\n[110417.280550]  [<ffffffff8151fd80>] ? ip_copy_metadata+0x1c0/0x1c0\\n[110417.280555]  [<ffffffff8151f860>] ? ip_forward_options+0x1f0/0x1f0\\n[110417.280559]  [<ffffffff81160a93>] alloc_pages_current+0xa3/0x110\\n[110417.280563]  [<ffffffff81125514>] __get_free_pages+0x14/0x50\\n[110417.280569]  [<ffffffff8116bb5f>] kmalloc_order_trace+0x3f/0xd0\\n[110417.280573]  [<ffffffff8116ca87>] __kmalloc+0x177/0x1a0\\n[110417.280578]  [<ffffffffa0642332>] ? pppol2tp_xmit+0x42/0x220 [l2tp_ppp]\\n[110417.280583]  [<ffffffff814db0a7>] pskb_expand_head+0x87/0x310\\n[110417.280588]  [<ffffffff8113dc59>] ? __mod_zone_page_state+0x49/0x50\\n[110417.280591]  [<ffffffff814da0f5>] ? kfree_skb+0x45/0xc0\\n[110417.280595]  [<ffffffffa06424dd>] pppol2tp_xmit+0x1ed/0x220 [l2tp_ppp]\\n[110417.280600]  [<ffffffffa062dd5b>] ppp_push+0x15b/0x650 [ppp_generic]\\n[110417.280604]  [<ffffffff814db264>] ? pskb_expand_head+0x244/0x310\\n[110417.280608]  [<ffffffff8112860b>] ? free_compound_page+0x1b/0x20\\n[110417.280612]  [<ffffffff8112d053>] ? __put_compound_page+0x23/0x30\\n[110417.280615]  [<ffffffff8112d1d5>] ? put_compound_page+0x125/0x1c0\\n[110417.280619]  [<ffffffffa062e89f>] ppp_xmit_process+0x46f/0x660 [ppp_generic]\\n[110417.280624]  [<ffffffffa062ebc8>] ppp_start_xmit+0x138/0x1d0 [ppp_generic]\\n[110417.280628]  [<ffffffff814e85b2>] dev_hard_start_xmit+0x332/0x6d0\\n[110417.280632]  [<ffffffff8150447a>] sch_direct_xmit+0xfa/0x1d0\\n[110417.280635]  [<ffffffff815045f6>] __qdisc_run+0xa6/0x130\\n[110417.280639]  [<ffffffff814e6883>] net_tx_action+0xe3/0x1f0\\n[110417.280643]  [<ffffffff8105f0c8>] __do_softirq+0xb8/0x230\\n[110417.280646]  [<ffffffff8105f2fa>] run_ksoftirqd+0xba/0x170\\n[110417.280649]  [<ffffffff8105f240>] ? __do_softirq+0x230/0x230\\n[110417.280654]  [<ffffffff81079da3>] kthread+0x93/0xa0\\n[110417.280658]  [<ffffffff815fd8e4>] kernel_thread_helper+0x4/0x10\\n[110417.280663]  [<ffffffff81079d10>] ? kthread_freezable_should_stop+0x70/0x70\\n[110417.280666]  [<ffffffff815fd8e0>] ? gs_change+0x13/0x13\\n\"\n,   \"taint_flags\": [ \"module_proprietary\"\n                   , \"page_release\"\n                   , \"died_recently\"\n                   , \"module_out_of_tree\" ]\n,   \"modules\":\n      [ \"vfat\"\n      , \"fat\"\n      , \"usb_storage\"\n      , \"authenc\"\n      , \"l2tp_ppp\"\n      , \"pppox\"\n      , \"ppp_generic\"\n      , \"slhc\"\n      , \"l2tp_netlink\"\n      , \"l2tp_core\"\n      , \"rmd160\"\n      , \"crypto_null\"\n      , \"camellia\"\n      , \"lzo\"\n      , \"cast6\"\n      , \"cast5\"\n      , \"deflate\"\n      , \"zlib_deflate\"\n      , \"cts\"\n      , \"gcm\"\n      , \"ccm\"\n      , \"serpent_sse2_x86_64\"\n      , \"serpent_generic\"\n      , \"blowfish_generic\"\n      , \"blowfish_x86_64\"\n      , \"blowfish_common\"\n      , \"twofish_generic\"\n      , \"twofish_x86_64_3way\"\n      , \"lrw\"\n      , \"twofish_x86_64\"\n      , \"twofish_common\"\n      , \"xcbc\"\n      , \"sha256_generic\"\n      , \"sha512_generic\"\n      , \"des_generic\"\n      , \"ah6\"\n      , \"ah4\"\n      , \"esp6\"\n      , \"esp4\"\n      , \"xfrm4_mode_beet\"\n      , \"xfrm4_tunnel\"\n      , \"tunnel4\"\n      , \"xfrm4_mode_tunnel\"\n      , \"xfrm4_mode_transport\"\n      , \"xfrm6_mode_transport\"\n      , \"xfrm6_mode_ro\"\n      , \"xfrm6_mode_beet\"\n      , \"xfrm6_mode_tunnel\"\n      , \"ipcomp\"\n      , \"ipcomp6\"\n      , \"xfrm_ipcomp\"\n      , \"xfrm6_tunnel\"\n      , \"tunnel6\"\n      , \"af_key\"\n      , \"snd_usb_audio\"\n      , \"snd_usbmidi_lib\"\n      , \"snd_rawmidi\"\n      , \"sctp\"\n      , \"libcrc32c\"\n      , \"tcp_lp\"\n      , \"wacom\"\n      , \"fuse\"\n      , \"lockd\"\n      , \"rfcomm\"\n      , \"bnep\"\n      , \"snd_hda_codec_hdmi\"\n      , \"snd_hda_codec_idt\"\n      , \"binfmt_misc\"\n      , \"arc4\"\n      , \"uvcvideo\"\n      , \"snd_hda_intel\"\n      , \"videobuf2_core\"\n      , \"videodev\"\n      , \"snd_hda_codec\"\n      , \"ppdev\"\n      , \"media\"\n      , \"dell_wmi\"\n      , \"videobuf2_vmalloc\"\n      , \"sparse_keymap\"\n      , \"videobuf2_memops\"\n      , \"dell_laptop\"\n      , \"snd_hwdep\"\n      , \"snd_seq\"\n      , \"uinput\"\n      , \"dcdbas\"\n      , \"snd_seq_device\"\n      , \"btusb\"\n      , \"bluetooth\"\n      , \"iwlwifi\"\n      , \"snd_pcm\"\n      , \"parport_pc\"\n      , \"joydev\"\n      , \"parport\"\n      , \"snd_timer\"\n      , \"microcode\"\n      , \"mac80211\"\n      , \"snd\"\n      , \"soundcore\"\n      , \"snd_page_alloc\"\n      , \"i2c_i801\"\n      , \"cfg80211\"\n      , \"iTCO_wdt\"\n      , \"iTCO_vendor_support\"\n      , \"rfkill\"\n      , \"e1000e\"\n      , \"sunrpc\"\n      , \"xts\"\n      , \"gf128mul\"\n      , \"dm_crypt\"\n      , \"sdhci_pci\"\n      , \"sdhci\"\n      , \"mmc_core\"\n      , \"wmi\"\n      , \"i915\"\n      , \"drm_kms_helper\"\n      , \"drm\"\n      , \"i2c_algo_bit\"\n      , \"i2c_core\"\n      , \"video\" ]\n,   \"frames\":\n      [ {   \"address\": 18446744071579204319\n        ,   \"reliable\": true\n        ,   \"function_name\": \"warn_slowpath_common\"\n        ,   \"function_offset\": 127\n        ,   \"function_length\": 192\n        ,   \"from_function_offset\": 0\n        ,   \"from_function_length\": 0\n        }\n      , {   \"address\": 18446744071579204410\n        ,   \"reliable\": true\n        ,   \"function_name\": \"warn_slowpath_null\"\n        ,   \"function_offset\": 26\n        ,   \"function_length\": 32\n        ,   \"from_function_offset\": 0\n        ,   \"from_function_length\": 0\n        }\n      , {   \"address\": 18446744071580063441\n        ,   \"reliable\": true\n        ,   \"function_name\": \"__alloc_pages_nodemask\"\n        ,   \"function_offset\": 561\n        ,   \"function_length\": 2288\n        ,   \"from_function_offset\": 0\n        ,   \"from_function_length\": 0\n        }\n      , {   \"address\": 18446744071584218496\n        ,   \"reliable\": false\n        ,   \"function_name\": \"ip_copy_metadata\"\n        ,   \"function_offset\": 448\n        ,   \"function_length\": 448\n        ,   \"from_function_offset\": 0\n        ,   \"from_function_length\": 0\n        }\n      , {   \"address\": 18446744071584217184\n        ,   \"reliable\": false\n        ,   \"function_name\": \"ip_forward_options\"\n        ,   \"function_offset\": 496\n        ,   \"function_length\": 496\n        ,   \"from_function_offset\": 0\n        ,   \"from_function_length\": 0\n        }\n      , {   \"address\": 18446744071580289683\n        ,   \"reliable\": true\n        ,   \"function_name\": \"alloc_pages_current\"\n        ,   \"function_offset\": 163\n        ,   \"function_length\": 272\n        ,   \"from_function_offset\": 0\n        ,   \"from_function_length\": 0\n        }\n      , {   \"address\": 18446744071580046612\n        ,   \"reliable\": true\n        ,   \"function_name\": \"__get_free_pages\"\n        ,   \"function_offset\": 20\n        ,   \"function_length\": 80\n        ,   \"from_function_offset\": 0\n        ,   \"from_function_length\": 0\n        }\n      , {   \"address\": 18446744071580334943\n        ,   \"reliable\": true\n        ,   \"function_name\": \"kmalloc_order_trace\"\n        ,   \"function_offset\": 63\n        ,   \"function_length\": 208\n        ,   \"from_function_offset\": 0\n        ,   \"from_function_length\": 0\n        }\n      , {   \"address\": 18446744071580338823\n        ,   \"reliable\": true\n        ,   \"function_name\": \"__kmalloc\"\n        ,   \"function_offset\": 375\n        ,   \"function_length\": 416\n        ,   \"from_function_offset\": 0\n        ,   \"from_function_length\": 0\n        }\n      , {   \"address\": 18446744072105501490\n        ,   \"reliable\": false\n        ,   \"function_name\": \"pppol2tp_xmit\"\n        ,   \"function_offset\": 66\n        ,   \"function_length\": 544\n        ,   \"module_name\": \"l2tp_ppp\"\n        ,   \"from_function_offset\": 0\n        ,   \"from_function_length\": 0\n        }\n      , {   \"address\": 18446744071583936679\n        ,   \"reliable\": true\n        ,   \"function_name\": \"pskb_expand_head\"\n        ,   \"function_offset\": 135\n        ,   \"function_length\": 784\n        ,   \"from_function_offset\": 0\n        ,   \"from_function_length\": 0\n        }\n      , {   \"address\": 18446744071580146777\n        ,   \"reliable\": false\n        ,   \"function_name\": \"__mod_zone_page_state\"\n        ,   \"function_offset\": 73\n        ,   \"function_length\": 80\n        ,   \"from_function_offset\": 0\n        ,   \"from_function_length\": 0\n        }\n      , {   \"address\": 18446744071583932661\n        ,   \"reliable\": false\n        ,   \"function_name\": \"kfree_skb\"\n        ,   \"function_offset\": 69\n        ,   \"function_length\": 192\n        ,   \"from_function_offset\": 0\n        ,   \"from_function_length\": 0\n        }\n      , {   \"address\": 18446744072105501917\n        ,   \"reliable\": true\n        ,   \"function_name\": \"pppol2tp_xmit\"\n        ,   \"function_offset\": 493\n        ,   \"function_length\": 544\n        ,   \"module_name\": \"l2tp_ppp\"\n        ,   \"from_function_offset\": 0\n        ,   \"from_function_length\": 0\n        }\n      , {   \"address\": 18446744072105418075\n        ,   \"reliable\": true\n        ,   \"function_name\": \"ppp_push\"\n        ,   \"function_offset\": 347\n        ,   \"function_length\": 1616\n        ,   \"module_name\": \"ppp_generic\"\n        ,   \"from_function_offset\": 0\n        ,   \"from_function_length\": 0\n        }\n      , {   \"address\": 18446744071583937124\n        ,   \"reliable\": false\n        ,   \"function_name\": \"pskb_expand_head\"\n        ,   \"function_offset\": 580\n        ,   \"function_length\": 784\n        ,   \"from_function_offset\": 0\n        ,   \"from_function_length\": 0\n        }\n      , {   \"address\": 18446744071580059147\n        ,   \"reliable\": false\n        ,   \"function_name\": \"free_compound_page\"\n        ,   \"function_offset\": 27\n        ,   \"function_length\": 32\n        ,   \"from_function_offset\": 0\n        ,   \"from_function_length\": 0\n        }\n      , {   \"address\": 18446744071580078163\n        ,   \"reliable\": false\n        ,   \"function_name\": \"__put_compound_page\"\n        ,   \"function_offset\": 35\n        ,   \"function_length\": 48\n        ,   \"from_function_offset\": 0\n        ,   \"from_function_length\": 0\n        }\n      , {   \"address\": 18446744071580078549\n        ,   \"reliable\": false\n        ,   \"function_name\": \"put_compound_page\"\n        ,   \"function_offset\": 293\n        ,   \"function_length\": 448\n        ,   \"from_function_offset\": 0\n        ,   \"from_function_length\": 0\n        }\n      , {   \"address\": 18446744072105420959\n        ,   \"reliable\": true\n        ,   \"function_name\": \"ppp_xmit_process\"\n        ,   \"function_offset\": 1135\n        ,   \"function_length\": 1632\n        ,   \"module_name\": \"ppp_generic\"\n        ,   \"from_function_offset\": 0\n        ,   \"from_function_length\": 0\n        }\n      , {   \"address\": 18446744072105421768\n        ,   \"reliable\": true\n        ,   \"function_name\": \"ppp_start_xmit\"\n        ,   \"function_offset\": 312\n        ,   \"function_length\": 464\n        ,   \"module_name\": \"ppp_generic\"\n        ,   \"from_function_offset\": 0\n        ,   \"from_function_length\": 0\n        }\n      , {   \"address\": 18446744071583991218\n        ,   \"reliable\": true\n        ,   \"function_name\": \"dev_hard_start_xmit\"\n        ,   \"function_offset\": 818\n        ,   \"function_length\": 1744\n        ,   \"from_function_offset\": 0\n        ,   \"from_function_length\": 0\n        }\n      , {   \"address\": 18446744071584105594\n        ,   \"reliable\": true\n        ,   \"function_name\": \"sch_direct_xmit\"\n        ,   \"function_offset\": 250\n        ,   \"function_length\": 464\n        ,   \"from_function_offset\": 0\n        ,   \"from_function_length\": 0\n        }\n      , {   \"address\": 18446744071584105974\n        ,   \"reliable\": true\n        ,   \"function_name\": \"__qdisc_run\"\n        ,   \"function_offset\": 166\n        ,   \"function_length\": 304\n        ,   \"from_function_offset\": 0\n        ,   \"from_function_length\": 0\n        }\n      , {   \"address\": 18446744071583983747\n        ,   \"reliable\": true\n        ,   \"function_name\": \"net_tx_action\"\n        ,   \"function_offset\": 227\n        ,   \"function_length\": 496\n        ,   \"from_function_offset\": 0\n        ,   \"from_function_length\": 0\n        }\n      , {   \"address\": 18446744071579234504\n        ,   \"reliable\": true\n        ,   \"function_name\": \"__do_softirq\"\n        ,   \"function_offset\": 184\n        ,   \"function_length\": 560\n        ,   \"from_function_offset\": 0\n        ,   \"from_function_length\": 0\n        }\n      , {   \"address\": 18446744071579235066\n        ,   \"reliable\": true\n        ,   \"function_name\": \"run_ksoftirqd\"\n        ,   \"function_offset\": 186\n        ,   \"function_length\": 368\n        ,   \"from_function_offset\": 0\n        ,   \"from_function_length\": 0\n        }\n      , {   \"address\": 18446744071579234880\n        ,   \"reliable\": false\n        ,   \"function_name\": \"__do_softirq\"\n        ,   \"function_offset\": 560\n        ,   \"function_length\": 560\n        ,   \"from_function_offset\": 0\n        ,   \"from_function_length\": 0\n        }\n      , {   \"address\": 18446744071579344291\n        ,   \"reliable\": true\n        ,   \"function_name\": \"kthread\"\n        ,   \"function_offset\": 147\n        ,   \"function_length\": 160\n        ,   \"from_function_offset\": 0\n        ,   \"from_function_length\": 0\n        }\n      , {   \"address\": 18446744071585126628\n        ,   \"reliable\": true\n        ,   \"function_name\": \"kernel_thread_helper\"\n        ,   \"function_offset\": 4\n        ,   \"function_length\": 16\n        ,   \"from_function_offset\": 0\n        ,   \"from_function_length\": 0\n        }\n      , {   \"address\": 18446744071579344144\n        ,   \"reliable\": false\n        ,   \"function_name\": \"kthread_freezable_should_stop\"\n        ,   \"function_offset\": 112\n        ,   \"function_length\": 112\n        ,   \"from_function_offset\": 0\n        ,   \"from_function_length\": 0\n        }\n      , {   \"address\": 18446744071585126624\n        ,   \"reliable\": false\n        ,   \"function_name\": \"gs_change\"\n        ,   \"function_offset\": 19\n        ,   \"function_length\": 19\n        ,   \"from_function_offset\": 0\n        ,   \"from_function_length\": 0\n        } ]\n}"
example : (do let (t, rest) ← parseTrace modified; .ok (rest, Json.Koops.toJson t)) = (.ok ([], modifiedJson) : Out (Str × Str)) := by decide +kernel

-- tests/koops_stacktrace.c:722-752
open Satyr.Hash in
example :
    let test := fun (f : KoopsFrame) (compat : Bool) => duphash id (.koops [⟨1, f⟩]) 1 none { nohash := true, koopsCompat := compat }
    let a : KoopsFrame := { address := 3735928495 }
    let n : KoopsFrame := { address := 3735928495, functionName := some c!"omg_warn_slowpath_common" }
    test { a with reliable := true } false = .ok (some c!"Thread\n0xdeadbeaf\n") ∧ test { a with reliable := true } true = .ok (some c!"0xdeadbeaf\n") ∧
    test a false = .ok (some c!"Thread\n0xdeadbeaf\n") ∧ test a true = .ok none ∧
    test { n with reliable := true } false = .ok (some c!"Thread\nomg_warn_slowpath_common\n") ∧
    test { n with reliable := true } true = .ok (some c!"omg_warn_slowpath_common\n") ∧
    test n false = .ok (some c!"Thread\nomg_warn_slowpath_common\n") ∧ test n true = .ok none := by decide +kernel

/-- tests/kerneloopses/rhbz-1140681 -/
def protection : Str := c!"general protection fault: 0000 [#1] SMP\nModules linked in: ccm rfcomm ip6t_rpfilter ip6t_REJECT xt_conntrack ebtable_nat ebtable_broute bridge stp llc ebtable_filter ebtables ip6table_nat nf_conntrack_ipv6 nf_defrag_ipv6 nf_nat_ipv6 ip6table_mangle ip6table_security ip6table_raw ip6table_filter ip6_tables iptable_nat nf_conntrack_ipv4 nf_defrag_ipv4 nf_nat_ipv4 nf_nat nf_conntrack iptable_mangle iptable_security bnep iptable_raw iTCO_wdt iTCO_vendor_support x86_pkg_temp_thermal coretemp kvm_intel kvm snd_hda_codec_hdmi crct10dif_pclmul snd_hda_codec_conexant snd_hda_codec_generic crc32_pclmul crc32c_intel arc4 iwldvm ghash_clmulni_intel mac80211 joydev microcode snd_hda_intel uvcvideo snd_hda_controller serio_raw videobuf2_vmalloc i2c_i801 snd_hda_codec videobuf2_memops iwlwifi videobuf2_core btusb videodev snd_hwdep lpc_ich bluetooth media mfd_core cfg80211 snd_seq snd_seq_device snd_pcm sdhci_pci sdhci mmc_core mei_me shpchp mei snd_timer wmi tpm_tis tpm thinkpad_acpi snd soundcore rfkill nfsd auth_rpcgss nfs_acl lockd sunrpc i915 i2c_algo_bit drm_kms_helper e1000e drm ptp i2c_core pps_core video\nCPU: 1 PID: 946 Comm: X Not tainted 3.15.10-201.fc20.x86_64 #1\nHardware name: LENOVO 4173W15/4173W15, BIOS 8CET58WW (1.38 ) 07/18/2013\ntask: ffff8800d523cf00 ti: ffff88020211c000 task.ti: ffff88020211c000\nRIP: 0010:[<ffffffff81171b02>]  [<ffffffff81171b02>] find_get_entry+0x42/0xc0\nRSP: 0000:ffff88020211fa28  EFLAGS: 00013246\nRAX: 0000000080000000 RBX: ffff880037e6e670 RCX: 00000000fffffffa\nRDX: 1000000000000000 RSI: ffff88013c46dad0 RDI: 0000000000000036\nRBP: ffff88020211fa38 R08: 0000000000000000 R09: ffff88013c46d918\nR10: ffff88020211fa08 R11: ffff880000000418 R12: 0000000000000072\nR13: ffff880037e6e668 R14: ffff880037e6e518 R15: ffffea0006fd9480\nFS:  00007fc8b072a9c0(0000) GS:ffff88021e240000(0000) knlGS:0000000000000000\nCS:  0010 DS: 0000 ES: 0000 CR0: 0000000080050033\nCR2: 00007fc8ac283000 CR3: 000000020fd19000 CR4: 00000000000407e0\nStack:\n 0000000000000072 0000000000000072 ffff88020211fa60 ffffffff81171d6f\n 0000000000000072 0000000000000000 0000000000000001 ffff88020211fb18\n ffffffff8118b98d 0000000000000000 ffff8800d523cf00 ffff88020211fb28\nCall Trace:\n [<ffffffff81171d6f>] find_lock_entry+0x1f/0x80\n [<ffffffff8118b98d>] shmem_getpage_gfp+0xcd/0x7c0\n [<ffffffff8118c1d0>] shmem_read_mapping_page_gfp+0x40/0x80\n [<ffffffffa00ff6aa>] i915_gem_object_get_pages_gtt+0x14a/0x3b0 [i915]\n [<ffffffffa00fb9bc>] i915_gem_object_get_pages+0x6c/0xc0 [i915]\n [<ffffffffa00ffd5d>] i915_gem_object_pin+0x34d/0x6f0 [i915]\n [<ffffffff811c915f>] ? kfree+0xff/0x140\n [<ffffffffa0102169>] i915_gem_fault+0x139/0x2a0 [i915]\n [<ffffffff8119adb8>] __do_fault+0x48/0xc0\n [<ffffffffa00341b1>] ? drm_vm_open_locked+0x31/0x90 [drm]\n [<ffffffff8119e5f0>] do_shared_fault.isra.58+0x40/0x1e0\n [<ffffffff8119f865>] handle_mm_fault+0x495/0x10e0\n [<ffffffffa002da3c>] ? drm_ioctl+0x1ec/0x660 [drm]\n [<ffffffff811a6d0d>] ? mmap_region+0x19d/0x5d0\n [<ffffffff816fa3ec>] __do_page_fault+0x18c/0x530\n [<ffffffff811a7435>] ? do_mmap_pgoff+0x2f5/0x3c0\n [<ffffffff812e9ec3>] ? file_map_prot_check+0x63/0xd0\n [<ffffffff811f9a20>] ? do_vfs_ioctl+0x2e0/0x4a0\n [<ffffffff816fa7b2>] do_page_fault+0x22/0x30\n [<ffffffff816f6e88>] page_fault+0x28/0x30\nCode: 89 df e8 62 13 1e 00 48 85 c0 48 89 c6 74 52 48 8b 10 48 85 d2 74 3d f6 c2 03 75 6e 65 8b 04 25 a0 c7 00 00 a9 00 ff 1f 00 75 5d <8b> 4a 1c 85 c9 74 ca 8d 79 01 4c 8d 4a 1c 89 c8 f0 0f b1 7a 1c \nRIP  [<ffffffff81171b02>] find_get_entry+0x42/0xc0\n RSP <ffff88020211fa28>\n"
-- tests/koops_stacktrace.c:755-778
example : (do let (t, rest) ← parseTrace protection; .ok (rest, ← Report.koopsReason t)) =
    (.ok ([], c!"general protection fault in find_get_entry") : Out (Str × Str)) := by decide +kernel

end Satyr.Conformance.Koops
