import Verif.Generic.Model
/-!
# The hash texts and short texts of the Python unit tests, computed by the model

tests/python/*.py compare the SHA-1 of the texts that `get_bthash` and `get_duphash` hash, and the results of `to_short_text`, with fixed
values. Here the model computes the texts from the same input files; the comment before each text gives its SHA-1, which is the value in
the unit test (SHA-1 itself is a parameter of the model, so it was computed outside). These are tests, not proofs: they are evidence that
the model is a model of the code.
-/
namespace Satyr.Conformance.Hash
open Satyr.CStr Satyr.Generic

set_option maxRecDepth 40000

/-- Parses the text, and computes the text of `get_bthash`, the text of `get_duphash` of the first thread and the short text. -/
def texts (type : Int) (s : Str) (frames : Int) : Out (Option (Str × Option Str × Option Str)) := do
  match ← Generic.parse type s with
  | none => .ok none
  | some t =>
    let bt ← Generic.getBthash id t true
    let short ← Generic.toShortText t frames
    match ← Generic.threads t with
    | none => .ok none
    | some th => .ok (some (bt, ← Generic.Thread.duphash id th 0 none { nohash := true }, short))

/-- tests/json_files/core-01 -/
def core : Str := c!"{   \"signal\": 6\n,   \"executable\": \"/usr/bin/will_abort\"\n,   \"extra_keys\": \"shall be ignored\"\n,   \"stacktrace\":\n      [ {   \"frames\":\n              [ {   \"address\": 87654\n                ,   \"build_id\": \"92ebaf825e4f492952c45189cb9ffc6541f8599b\"\n                ,   \"build_id_offset\": 42\n                ,   \"function_name\": \"fake_frame_for_the_sake_of_multiple_threads\"\n                ,   \"file_name\": \"/usr/bin/will_abort\"\n                }\n              , {   \"address\": 98346\n                ,   \"build_id\": \"92ebaf825e4f492952c45189cb9ffc6541f8599b\"\n                ,   \"build_id_offset\": 10734\n                ,   \"function_name\": \"fake_function\"\n                ,   \"file_name\": \"/usr/bin/will_abort\"\n                } ]\n        }\n      , {   \"crash_thread\": true\n        ,   \"frames\":\n              [ {   \"address\": 237190207797\n                ,   \"build_id\": \"cc10c72da62c93033e227ffbe2670f2c4fbbde1a\"\n                ,   \"build_id_offset\": 219445\n                ,   \"function_name\": \"raise\"\n                ,   \"file_name\": \"/usr/lib64/libc-2.15.so\"\n                ,   \"an_unknown_key\": \"fromTHEfuture\"\n                ,   \"fingerprint\": \"f33186a4c862fb0751bca60701f553b829210477\"\n                }\n              , {   \"address\": 237190213864\n                ,   \"build_id\": \"cc10c72da62c93033e227ffbe2670f2c4fbbde1a\"\n                ,   \"build_id_offset\": 225512\n                ,   \"function_name\": \"abort\"\n                ,   \"file_name\": \"/usr/lib64/libc-2.15.so\"\n                ,   \"fingerprint\": \"352bc5cf09233cea84fd089527a146cfb5b7d8dc\"\n                }\n              , {   \"address\": 4195427\n                ,   \"build_id\": \"92ebaf825e4f492952c45189cb9ffc6541f8599b\"\n                ,   \"build_id_offset\": 1123\n                ,   \"file_name\": \"/usr/bin/will_abort\"\n                }\n              , {   \"address\": 237190125365\n                ,   \"build_id\": \"cc10c72da62c93033e227ffbe2670f2c4fbbde1a\"\n                ,   \"build_id_offset\": 137013\n                ,   \"function_name\": \"__libc_start_main\"\n                ,   \"file_name\": \"/usr/lib64/libc-2.15.so\"\n                ,   \"fingerprint\": \"5ff4a3d3743fdde711c49033d1e01784477e57fb\"\n                } ]\n        } ]\n}\n"
/-- Its SHA-1 is 6ebee2edb486ee24a3280c18b0db5353bbc22014 (tests/python/core.py:49). -/
def coreBt : Str := c!"Executable: /usr/bin/will_abort\nSignal: 6\n\n0x15666, 92ebaf825e4f492952c45189cb9ffc6541f8599b+0x2a, /usr/bin/will_abort, <unknown>\n0x1802a, 92ebaf825e4f492952c45189cb9ffc6541f8599b+0x29ee, /usr/bin/will_abort, <unknown>\n\n0x3739a35935, cc10c72da62c93033e227ffbe2670f2c4fbbde1a+0x35935, /usr/lib64/libc-2.15.so, f33186a4c862fb0751bca60701f553b829210477\n0x3739a370e8, cc10c72da62c93033e227ffbe2670f2c4fbbde1a+0x370e8, /usr/lib64/libc-2.15.so, 352bc5cf09233cea84fd089527a146cfb5b7d8dc\n0x400463, 92ebaf825e4f492952c45189cb9ffc6541f8599b+0x463, /usr/bin/will_abort, <unknown>\n0x3739a21735, cc10c72da62c93033e227ffbe2670f2c4fbbde1a+0x21735, /usr/lib64/libc-2.15.so, 5ff4a3d3743fdde711c49033d1e01784477e57fb\n"
/-- Its SHA-1 is ad8486fa45ff39ffed7a07f3b68b8f406ebe2550 (tests/python/core.py:171). -/
def coreDup : Str := c!"Thread\n92ebaf825e4f492952c45189cb9ffc6541f8599b+0x2a\n92ebaf825e4f492952c45189cb9ffc6541f8599b+0x29ee\n"
/-- tests/python/core.py:9 -/
def coreShort : Str := c!"#1 [libc-2.15.so] raise\n#2 [libc-2.15.so] abort\n#3 [will_abort] 92ebaf825e4f492952c45189cb9ffc6541f8599b+1123\n#4 [libc-2.15.so] __libc_start_main\n"
example : texts 1 core 8 = .ok (some (coreBt, some coreDup, some coreShort)) := by decide +kernel

/-- tests/python_stacktraces/python-01 -/
def python : Str := c!"Traceback (most recent call last):\n  File \"/usr/share/PackageKit/helpers/yum/yumBackend.py\", line 1830, in _runYumTransaction\n    rpmDisplay=rpmDisplay)\n  File \"/usr/lib/python2.6/site-packages/yum/__init__.py\", line 3494, in processTransaction\n    pkgs = self._downloadPackages(callback)\n  File \"/usr/lib/python2.6/site-packages/yum/__init__.py\", line 3518, in _downloadPackages\n    probs = self.downloadPkgs(dlpkgs)\n  File \"/usr/lib/python2.6/site-packages/yum/__init__.py\", line 1275, in downloadPkgs\n    self.plugins.run('predownload', pkglist=pkglist)\n  File \"/usr/lib/python2.6/site-packages/yum/plugins.py\", line 179, in run\n    func(conduitcls(self, self.base, conf, **kwargs))\n  File \"/usr/lib/yum-plugins/presto.py\", line 577, in predownload_hook\n    (problems, more) = downloadPkgs(conduit, pinfo, download_pkgs)\n  File \"/usr/lib/yum-plugins/presto.py\", line 419, in downloadPkgs\n    cb.start(text=\"<delta rebuild>\", size=rebuild_size)\n  File \"/usr/lib/python2.6/site-packages/urlgrabber/progress.py\", line 129, in start\n    self._do_start(now)\n  File \"/usr/share/PackageKit/helpers/yum/yumBackend.py\", line 2551, in _do_start\n    self.updateProgress(name, 0.0, \"\", \"\")\n  File \"/usr/share/PackageKit/helpers/yum/yumBackend.py\", line 2593, in updateProgress\n    pkg = self._getPackage(name)\n  File \"/home/user/PackageKit/helpers/yum/yumBackend.py\", line 2534, in _getPackage\n    sections = name.rsplit('-', 2)\nAttributeError: 'NoneType' object has no attribute 'rsplit'\n"
/-- Its SHA-1 is eabeeae89433bb3b3d9eb8190659dcf057ab3cd1 (tests/python/python.py:79). -/
def pythonBt : Str := c!"Exception: AttributeError\n\n/home/anonymized/PackageKit/helpers/yum/yumBackend.py, 0, 2534, _getPackage, 0, sections = name.rsplit('-', 2)\n/usr/share/PackageKit/helpers/yum/yumBackend.py, 0, 2593, updateProgress, 0, pkg = self._getPackage(name)\n/usr/share/PackageKit/helpers/yum/yumBackend.py, 0, 2551, _do_start, 0, self.updateProgress(name, 0.0, \"\", \"\")\n/usr/lib/python2.6/site-packages/urlgrabber/progress.py, 0, 129, start, 0, self._do_start(now)\n/usr/lib/yum-plugins/presto.py, 0, 419, downloadPkgs, 0, cb.start(text=\"<delta rebuild>\", size=rebuild_size)\n/usr/lib/yum-plugins/presto.py, 0, 577, predownload_hook, 0, (problems, more) = downloadPkgs(conduit, pinfo, download_pkgs)\n/usr/lib/python2.6/site-packages/yum/plugins.py, 0, 179, run, 0, func(conduitcls(self, self.base, conf, **kwargs))\n/usr/lib/python2.6/site-packages/yum/__init__.py, 0, 1275, downloadPkgs, 0, self.plugins.run('predownload', pkglist=pkglist)\n/usr/lib/python2.6/site-packages/yum/__init__.py, 0, 3518, _downloadPackages, 0, probs = self.downloadPkgs(dlpkgs)\n/usr/lib/python2.6/site-packages/yum/__init__.py, 0, 3494, processTransaction, 0, pkgs = self._downloadPackages(callback)\n/usr/share/PackageKit/helpers/yum/yumBackend.py, 0, 1830, _runYumTransaction, 0, rpmDisplay=rpmDisplay)\n"
/-- Its SHA-1 is 8c8273cddf94e10fc0349284afcff8970056d9e5 (tests/python/python.py:88). -/
def pythonDup : Str := c!"Thread\n/home/anonymized/PackageKit/helpers/yum/yumBackend.py:2534\n/usr/share/PackageKit/helpers/yum/yumBackend.py:2593\n/usr/share/PackageKit/helpers/yum/yumBackend.py:2551\n/usr/lib/python2.6/site-packages/urlgrabber/progress.py:129\n/usr/lib/yum-plugins/presto.py:419\n/usr/lib/yum-plugins/presto.py:577\n/usr/lib/python2.6/site-packages/yum/plugins.py:179\n/usr/lib/python2.6/site-packages/yum/__init__.py:1275\n/usr/lib/python2.6/site-packages/yum/__init__.py:3518\n/usr/lib/python2.6/site-packages/yum/__init__.py:3494\n/usr/share/PackageKit/helpers/yum/yumBackend.py:1830\n"
/-- tests/python/python.py:9 -/
def pythonShort : Str := c!"#1 [/home/anonymized/PackageKit/helpers/yum/yumBackend.py:2534] _getPackage\n#2 [/usr/share/PackageKit/helpers/yum/yumBackend.py:2593] updateProgress\n#3 [/usr/share/PackageKit/helpers/yum/yumBackend.py:2551] _do_start\n#4 [/usr/lib/python2.6/site-packages/urlgrabber/progress.py:129] start\n#5 [/usr/lib/yum-plugins/presto.py:419] downloadPkgs\n#6 [/usr/lib/yum-plugins/presto.py:577] predownload_hook\n"
example : texts 2 python 6 = .ok (some (pythonBt, some pythonDup, some pythonShort)) := by decide +kernel

/-- tests/kerneloopses/rhbz-827868 -/
def koops : Str := c!"[110417.280426] WARNING: at mm/page_alloc.c:2204 __alloc_pages_nodemask+0x231/0x8f0()\n[110417.280429] Hardware name: Latitude E6420\n[110417.280431] Modules linked in: vfat fat usb_storage authenc l2tp_ppp pppox ppp_generic slhc l2tp_netlink l2tp_core rmd160 crypto_null camellia lzo cast6 cast5 deflate zlib_deflate cts gcm ccm serpent_sse2_x86_64 serpent_generic blowfish_generic blowfish_x86_64 blowfish_common twofish_generic twofish_x86_64_3way lrw twofish_x86_64 twofish_common xcbc sha256_generic sha512_generic des_generic ah6 ah4 esp6 esp4 xfrm4_mode_beet xfrm4_tunnel tunnel4 xfrm4_mode_tunnel xfrm4_mode_transport xfrm6_mode_transport xfrm6_mode_ro xfrm6_mode_beet xfrm6_mode_tunnel ipcomp ipcomp6 xfrm_ipcomp xfrm6_tunnel tunnel6 af_key snd_usb_audio snd_usbmidi_lib snd_rawmidi sctp libcrc32c tcp_lp wacom fuse lockd rfcomm bnep snd_hda_codec_hdmi snd_hda_codec_idt binfmt_misc arc4 uvcvideo snd_hda_intel videobuf2_core videodev snd_hda_codec ppdev media dell_wmi videobuf2_vmalloc sparse_keymap videobuf2_memops dell_laptop snd_hwdep snd_seq uinput dcdbas snd_seq_device btusb bluetooth iwlwifi snd_pcm parport_pc \njoydev parport snd_timer microcode mac80211 snd soundcore snd_page_alloc i2c_i801 cfg80211 iTCO_wdt iTCO_vendor_support rfkill e1000e sunrpc xts gf128mul dm_crypt sdhci_pci sdhci mmc_core wmi i915 drm_kms_helper drm i2c_algo_bit i2c_core video [last unloaded: scsi_wait_scan]\n[110417.280525] Pid: 3, comm: ksoftirqd/0 Not tainted 3.3.7-1.fc16.x86_64 #1\n[110417.280528] Call Trace:\n[110417.280535]  [<ffffffff81057adf>] warn_slowpath_common+0x7f/0xc0\n[110417.280539]  [<ffffffff81057b3a>] warn_slowpath_null+0x1a/0x20\n[110417.280544]  [<ffffffff811296d1>] __alloc_pages_nodemask+0x231/0x8f0\n[110417.280550]  [<ffffffff8151fd80>] ? ip_copy_metadata+0x1c0/0x1c0\n[110417.280555]  [<ffffffff8151f860>] ? ip_forward_options+0x1f0/0x1f0\n[110417.280559]  [<ffffffff81160a93>] alloc_pages_current+0xa3/0x110\n[110417.280563]  [<ffffffff81125514>] __get_free_pages+0x14/0x50\n[110417.280569]  [<ffffffff8116bb5f>] kmalloc_order_trace+0x3f/0xd0\n[110417.280573]  [<ffffffff8116ca87>] __kmalloc+0x177/0x1a0\n[110417.280578]  [<ffffffffa0642332>] ? pppol2tp_xmit+0x42/0x220 [l2tp_ppp]\n[110417.280583]  [<ffffffff814db0a7>] pskb_expand_head+0x87/0x310\n[110417.280588]  [<ffffffff8113dc59>] ? __mod_zone_page_state+0x49/0x50\n[110417.280591]  [<ffffffff814da0f5>] ? kfree_skb+0x45/0xc0\n[110417.280595]  [<ffffffffa06424dd>] pppol2tp_xmit+0x1ed/0x220 [l2tp_ppp]\n[110417.280600]  [<ffffffffa062dd5b>] ppp_push+0x15b/0x650 [ppp_generic]\n[110417.280604]  [<ffffffff814db264>] ? pskb_expand_head+0x244/0x310\n[110417.280608]  [<ffffffff8112860b>] ? free_compound_page+0x1b/0x20\n[110417.280612]  [<ffffffff8112d053>] ? __put_compound_page+0x23/0x30\n[110417.280615]  [<ffffffff8112d1d5>] ? put_compound_page+0x125/0x1c0\n[110417.280619]  [<ffffffffa062e89f>] ppp_xmit_process+0x46f/0x660 [ppp_generic]\n[110417.280624]  [<ffffffffa062ebc8>] ppp_start_xmit+0x138/0x1d0 [ppp_generic]\n[110417.280628]  [<ffffffff814e85b2>] dev_hard_start_xmit+0x332/0x6d0\n[110417.280632]  [<ffffffff8150447a>] sch_direct_xmit+0xfa/0x1d0\n[110417.280635]  [<ffffffff815045f6>] __qdisc_run+0xa6/0x130\n[110417.280639]  [<ffffffff814e6883>] net_tx_action+0xe3/0x1f0\n[110417.280643]  [<ffffffff8105f0c8>] __do_softirq+0xb8/0x230\n[110417.280646]  [<ffffffff8105f2fa>] run_ksoftirqd+0xba/0x170\n[110417.280649]  [<ffffffff8105f240>] ? __do_softirq+0x230/0x230\n[110417.280654]  [<ffffffff81079da3>] kthread+0x93/0xa0\n[110417.280658]  [<ffffffff815fd8e4>] kernel_thread_helper+0x4/0x10\n[110417.280663]  [<ffffffff81079d10>] ? kthread_freezable_should_stop+0x70/0x70\n[110417.280666]  [<ffffffff815fd8e0>] ? gs_change+0x13/0x13\n"
/-- Its SHA-1 is 73c7ce83d5ba90a1acbcc7915a62595914321f97 (tests/python/koops.py:66). -/
def koopsBt : Str := c!"Version: <unknown>\nFlags: \nModules: vfat, fat, usb_storage, authenc, l2tp_ppp, pppox, ppp_generic, slhc, l2tp_netlink, l2tp_core, rmd160, crypto_null, camellia, lzo, cast6, cast5, deflate, zlib_deflate, cts, gcm, ccm, serpent_sse2_x86_64, serpent_generic, blowfish_generic, blowfish_x86_64, blowfish_common, twofish_generic, twofish_x86_64_3way, lrw, twofish_x86_64, twofish_common, xcbc, sha256_generic, sha512_generic, des_generic, ah6, ah4, esp6, esp4, xfrm4_mode_beet, xfrm4_tunnel, tunnel4, xfrm4_mode_tunnel, xfrm4_mode_transport, xfrm6_mode_transport, xfrm6_mode_ro, xfrm6_mode_beet, xfrm6_mode_tunnel, ipcomp, ipcomp6, xfrm_ipcomp, xfrm6_tunnel, tunnel6, af_key, snd_usb_audio, snd_usbmidi_lib, snd_rawmidi, sctp, libcrc32c, tcp_lp, wacom, fuse, lockd, rfcomm, bnep, snd_hda_codec_hdmi, snd_hda_codec_idt, binfmt_misc, arc4, uvcvideo, snd_hda_intel, videobuf2_core, videodev, snd_hda_codec, ppdev, media, dell_wmi, videobuf2_vmalloc, sparse_keymap, videobuf2_memops, dell_laptop, snd_hwdep, snd_seq, uinput, dcdbas, snd_seq_device, btusb, bluetooth, iwlwifi, snd_pcm, parport_pc, joydev, parport, snd_timer, microcode, mac80211, snd, soundcore, snd_page_alloc, i2c_i801, cfg80211, iTCO_wdt, iTCO_vendor_support, rfkill, e1000e, sunrpc, xts, gf128mul, dm_crypt, sdhci_pci, sdhci, mmc_core, wmi, i915, drm_kms_helper, drm, i2c_algo_bit, i2c_core, video\n\n0xffffffff81057adf, 1, warn_slowpath_common, 0x7f, 0xc0, <unknown>, 0x0, <unknown>, 0x0, 0x0, <unknown>\n0xffffffff81057b3a, 1, warn_slowpath_null, 0x1a, 0x20, <unknown>, 0x0, <unknown>, 0x0, 0x0, <unknown>\n0xffffffff811296d1, 1, __alloc_pages_nodemask, 0x231, 0x8f0, <unknown>, 0x0, <unknown>, 0x0, 0x0, <unknown>\n0xffffffff8151fd80, 0, ip_copy_metadata, 0x1c0, 0x1c0, <unknown>, 0x0, <unknown>, 0x0, 0x0, <unknown>\n0xffffffff8151f860, 0, ip_forward_options, 0x1f0, 0x1f0, <unknown>, 0x0, <unknown>, 0x0, 0x0, <unknown>\n0xffffffff81160a93, 1, alloc_pages_current, 0xa3, 0x110, <unknown>, 0x0, <unknown>, 0x0, 0x0, <unknown>\n0xffffffff81125514, 1, __get_free_pages, 0x14, 0x50, <unknown>, 0x0, <unknown>, 0x0, 0x0, <unknown>\n0xffffffff8116bb5f, 1, kmalloc_order_trace, 0x3f, 0xd0, <unknown>, 0x0, <unknown>, 0x0, 0x0, <unknown>\n0xffffffff8116ca87, 1, __kmalloc, 0x177, 0x1a0, <unknown>, 0x0, <unknown>, 0x0, 0x0, <unknown>\n0xffffffffa0642332, 0, pppol2tp_xmit, 0x42, 0x220, l2tp_ppp, 0x0, <unknown>, 0x0, 0x0, <unknown>\n0xffffffff814db0a7, 1, pskb_expand_head, 0x87, 0x310, <unknown>, 0x0, <unknown>, 0x0, 0x0, <unknown>\n0xffffffff8113dc59, 0, __mod_zone_page_state, 0x49, 0x50, <unknown>, 0x0, <unknown>, 0x0, 0x0, <unknown>\n0xffffffff814da0f5, 0, kfree_skb, 0x45, 0xc0, <unknown>, 0x0, <unknown>, 0x0, 0x0, <unknown>\n0xffffffffa06424dd, 1, pppol2tp_xmit, 0x1ed, 0x220, l2tp_ppp, 0x0, <unknown>, 0x0, 0x0, <unknown>\n0xffffffffa062dd5b, 1, ppp_push, 0x15b, 0x650, ppp_generic, 0x0, <unknown>, 0x0, 0x0, <unknown>\n0xffffffff814db264, 0, pskb_expand_head, 0x244, 0x310, <unknown>, 0x0, <unknown>, 0x0, 0x0, <unknown>\n0xffffffff8112860b, 0, free_compound_page, 0x1b, 0x20, <unknown>, 0x0, <unknown>, 0x0, 0x0, <unknown>\n0xffffffff8112d053, 0, __put_compound_page, 0x23, 0x30, <unknown>, 0x0, <unknown>, 0x0, 0x0, <unknown>\n0xffffffff8112d1d5, 0, put_compound_page, 0x125, 0x1c0, <unknown>, 0x0, <unknown>, 0x0, 0x0, <unknown>\n0xffffffffa062e89f, 1, ppp_xmit_process, 0x46f, 0x660, ppp_generic, 0x0, <unknown>, 0x0, 0x0, <unknown>\n0xffffffffa062ebc8, 1, ppp_start_xmit, 0x138, 0x1d0, ppp_generic, 0x0, <unknown>, 0x0, 0x0, <unknown>\n0xffffffff814e85b2, 1, dev_hard_start_xmit, 0x332, 0x6d0, <unknown>, 0x0, <unknown>, 0x0, 0x0, <unknown>\n0xffffffff8150447a, 1, sch_direct_xmit, 0xfa, 0x1d0, <unknown>, 0x0, <unknown>, 0x0, 0x0, <unknown>\n0xffffffff815045f6, 1, __qdisc_run, 0xa6, 0x130, <unknown>, 0x0, <unknown>, 0x0, 0x0, <unknown>\n0xffffffff814e6883, 1, net_tx_action, 0xe3, 0x1f0, <unknown>, 0x0, <unknown>, 0x0, 0x0, <unknown>\n0xffffffff8105f0c8, 1, __do_softirq, 0xb8, 0x230, <unknown>, 0x0, <unknown>, 0x0, 0x0, <unknown>\n0xffffffff8105f2fa, 1, run_ksoftirqd, 0xba, 0x170, <unknown>, 0x0, <unknown>, 0x0, 0x0, <unknown>\n0xffffffff8105f240, 0, __do_softirq, 0x230, 0x230, <unknown>, 0x0, <unknown>, 0x0, 0x0, <unknown>\n0xffffffff81079da3, 1, kthread, 0x93, 0xa0, <unknown>, 0x0, <unknown>, 0x0, 0x0, <unknown>\n0xffffffff815fd8e4, 1, kernel_thread_helper, 0x4, 0x10, <unknown>, 0x0, <unknown>, 0x0, 0x0, <unknown>\n0xffffffff81079d10, 0, kthread_freezable_should_stop, 0x70, 0x70, <unknown>, 0x0, <unknown>, 0x0, 0x0, <unknown>\n0xffffffff815fd8e0, 0, gs_change, 0x13, 0x13, <unknown>, 0x0, <unknown>, 0x0, 0x0, <unknown>\n"
/-- Its SHA-1 is 53f62f9d6f7de093f50653863d200f4789ace7ef (tests/python/koops.py:71). -/
def koopsDup : Str := c!"Thread\n__alloc_pages_nodemask\nip_copy_metadata\nip_forward_options\nalloc_pages_current\n__get_free_pages\nkmalloc_order_trace\n__kmalloc\npppol2tp_xmit\npskb_expand_head\n__mod_zone_page_state\nkfree_skb\npppol2tp_xmit\nppp_push\npskb_expand_head\nfree_compound_page\n__put_compound_page\nput_compound_page\nppp_xmit_process\nppp_start_xmit\ndev_hard_start_xmit\nsch_direct_xmit\n__qdisc_run\nnet_tx_action\n__do_softirq\nrun_ksoftirqd\n__do_softirq\nkthread_freezable_should_stop\n"
/-- tests/python/koops.py:9 -/
def koopsShort : Str := c!"#1 warn_slowpath_common\n#2 warn_slowpath_null\n#3 __alloc_pages_nodemask\n#4 ? ip_copy_metadata\n#5 ? ip_forward_options\n#6 alloc_pages_current\n#7 __get_free_pages\n"
example : texts 3 koops 7 = .ok (some (koopsBt, some koopsDup, some koopsShort)) := by decide +kernel

/-- tests/java_stacktraces/java-02 -/
def java : Str := c!"javax.servlet.ServletException: Something bad happened\n    at com.example.myproject.OpenSessionInViewFilter.doFilter(OpenSessionInViewFilter.java:60)\n    at org.mortbay.jetty.servlet.ServletHandler$CachedChain.doFilter(ServletHandler.java:1157)\n    at com.example.myproject.ExceptionHandlerFilter.doFilter(ExceptionHandlerFilter.java:28)\n    at org.mortbay.jetty.servlet.ServletHandler$CachedChain.doFilter(ServletHandler.java:1157)\n    at com.example.myproject.OutputBufferFilter.doFilter(OutputBufferFilter.java:33)\n    at org.mortbay.jetty.servlet.ServletHandler$CachedChain.doFilter(ServletHandler.java:1157)\n    at org.mortbay.jetty.servlet.ServletHandler.handle(ServletHandler.java:388)\n    at org.mortbay.jetty.security.SecurityHandler.handle(SecurityHandler.java:216)\n    at org.mortbay.jetty.servlet.SessionHandler.handle(SessionHandler.java:182)\n    at org.mortbay.jetty.handler.ContextHandler.handle(ContextHandler.java:765)\n    at org.mortbay.jetty.webapp.WebAppContext.handle(WebAppContext.java:418)\n    at org.mortbay.jetty.handler.HandlerWrapper.handle(HandlerWrapper.java:152)\n    at org.mortbay.jetty.Server.handle(Server.java:326)\n    at org.mortbay.jetty.HttpConnection.handleRequest(HttpConnection.java:542)\n    at org.mortbay.jetty.HttpConnection$RequestHandler.content(HttpConnection.java:943)\n    at org.mortbay.jetty.HttpParser.parseNext(HttpParser.java:756)\n    at org.mortbay.jetty.HttpParser.parseAvailable(HttpParser.java:218)\n    at org.mortbay.jetty.HttpConnection.handle(HttpConnection.java:404)\n    at org.mortbay.jetty.bio.SocketConnector$Connection.run(SocketConnector.java:228)\n    at org.mortbay.thread.QueuedThreadPool$PoolThread.run(QueuedThreadPool.java:582)\nCaused by: com.example.myproject.MyProjectServletException\n    at com.example.myproject.MyServlet.doPost(MyServlet.java:169)\n    at javax.servlet.http.HttpServlet.service(HttpServlet.java:727)\n    at javax.servlet.http.HttpServlet.service(HttpServlet.java:820)\n    at org.mortbay.jetty.servlet.ServletHolder.handle(ServletHolder.java:511)\n    at org.mortbay.jetty.servlet.ServletHandler$CachedChain.doFilter(ServletHandler.java:1166)\n    at com.example.myproject.OpenSessionInViewFilter.doFilter(OpenSessionInViewFilter.java:30)\n    ... 27 more\nCaused by: org.hibernate.exception.ConstraintViolationException: could not insert: [com.example.myproject.MyEntity]\n    at org.hibernate.exception.SQLStateConverter.convert(SQLStateConverter.java:96)\n    at org.hibernate.exception.JDBCExceptionHelper.convert(JDBCExceptionHelper.java:66)\n    at org.hibernate.id.insert.AbstractSelectingDelegate.performInsert(AbstractSelectingDelegate.java:64)\n"
/-- Its SHA-1 is 184370433901aa9f14bfc85c29576e24ebca2c2e (tests/python/java.py:53). -/
def javaBt : Str := c!"Thread <unknown>\norg.hibernate.exception.ConstraintViolationException, <unknown>, 0, <unknown>, 0, 1, could not insert: [com.example.myproject.MyEntity]\norg.hibernate.exception.SQLStateConverter.convert, SQLStateConverter.java, 96, <unknown>, 0, 0, <unknown>\norg.hibernate.exception.JDBCExceptionHelper.convert, JDBCExceptionHelper.java, 66, <unknown>, 0, 0, <unknown>\norg.hibernate.id.insert.AbstractSelectingDelegate.performInsert, AbstractSelectingDelegate.java, 64, <unknown>, 0, 0, <unknown>\ncom.example.myproject.MyProjectServletException, <unknown>, 0, <unknown>, 0, 1, <unknown>\ncom.example.myproject.MyServlet.doPost, MyServlet.java, 169, <unknown>, 0, 0, <unknown>\njavax.servlet.http.HttpServlet.service, HttpServlet.java, 727, <unknown>, 0, 0, <unknown>\njavax.servlet.http.HttpServlet.service, HttpServlet.java, 820, <unknown>, 0, 0, <unknown>\norg.mortbay.jetty.servlet.ServletHolder.handle, ServletHolder.java, 511, <unknown>, 0, 0, <unknown>\norg.mortbay.jetty.servlet.ServletHandler$CachedChain.doFilter, ServletHandler.java, 1166, <unknown>, 0, 0, <unknown>\ncom.example.myproject.OpenSessionInViewFilter.doFilter, OpenSessionInViewFilter.java, 30, <unknown>, 0, 0, <unknown>\njavax.servlet.ServletException, <unknown>, 0, <unknown>, 0, 1, Something bad happened\ncom.example.myproject.OpenSessionInViewFilter.doFilter, OpenSessionInViewFilter.java, 60, <unknown>, 0, 0, <unknown>\norg.mortbay.jetty.servlet.ServletHandler$CachedChain.doFilter, ServletHandler.java, 1157, <unknown>, 0, 0, <unknown>\ncom.example.myproject.ExceptionHandlerFilter.doFilter, ExceptionHandlerFilter.java, 28, <unknown>, 0, 0, <unknown>\norg.mortbay.jetty.servlet.ServletHandler$CachedChain.doFilter, ServletHandler.java, 1157, <unknown>, 0, 0, <unknown>\ncom.example.myproject.OutputBufferFilter.doFilter, OutputBufferFilter.java, 33, <unknown>, 0, 0, <unknown>\norg.mortbay.jetty.servlet.ServletHandler$CachedChain.doFilter, ServletHandler.java, 1157, <unknown>, 0, 0, <unknown>\norg.mortbay.jetty.servlet.ServletHandler.handle, ServletHandler.java, 388, <unknown>, 0, 0, <unknown>\norg.mortbay.jetty.security.SecurityHandler.handle, SecurityHandler.java, 216, <unknown>, 0, 0, <unknown>\norg.mortbay.jetty.servlet.SessionHandler.handle, SessionHandler.java, 182, <unknown>, 0, 0, <unknown>\norg.mortbay.jetty.handler.ContextHandler.handle, ContextHandler.java, 765, <unknown>, 0, 0, <unknown>\norg.mortbay.jetty.webapp.WebAppContext.handle, WebAppContext.java, 418, <unknown>, 0, 0, <unknown>\norg.mortbay.jetty.handler.HandlerWrapper.handle, HandlerWrapper.java, 152, <unknown>, 0, 0, <unknown>\norg.mortbay.jetty.Server.handle, Server.java, 326, <unknown>, 0, 0, <unknown>\norg.mortbay.jetty.HttpConnection.handleRequest, HttpConnection.java, 542, <unknown>, 0, 0, <unknown>\norg.mortbay.jetty.HttpConnection$RequestHandler.content, HttpConnection.java, 943, <unknown>, 0, 0, <unknown>\norg.mortbay.jetty.HttpParser.parseNext, HttpParser.java, 756, <unknown>, 0, 0, <unknown>\norg.mortbay.jetty.HttpParser.parseAvailable, HttpParser.java, 218, <unknown>, 0, 0, <unknown>\norg.mortbay.jetty.HttpConnection.handle, HttpConnection.java, 404, <unknown>, 0, 0, <unknown>\norg.mortbay.jetty.bio.SocketConnector$Connection.run, SocketConnector.java, 228, <unknown>, 0, 0, <unknown>\norg.mortbay.thread.QueuedThreadPool$PoolThread.run, QueuedThreadPool.java, 582, <unknown>, 0, 0, <unknown>\n"
/-- Its SHA-1 is 81450a80a9d9307624b08e80dc244beb63d91138 (tests/python/java.py:188). -/
def javaDup : Str := c!"Thread\norg.hibernate.exception.ConstraintViolationException\norg.hibernate.exception.SQLStateConverter.convert\norg.hibernate.exception.JDBCExceptionHelper.convert\norg.hibernate.id.insert.AbstractSelectingDelegate.performInsert\ncom.example.myproject.MyProjectServletException\ncom.example.myproject.MyServlet.doPost\njavax.servlet.http.HttpServlet.service\njavax.servlet.http.HttpServlet.service\norg.mortbay.jetty.servlet.ServletHolder.handle\norg.mortbay.jetty.servlet.ServletHandler$CachedChain.doFilter\ncom.example.myproject.OpenSessionInViewFilter.doFilter\njavax.servlet.ServletException\ncom.example.myproject.OpenSessionInViewFilter.doFilter\norg.mortbay.jetty.servlet.ServletHandler$CachedChain.doFilter\ncom.example.myproject.ExceptionHandlerFilter.doFilter\norg.mortbay.jetty.servlet.ServletHandler$CachedChain.doFilter\ncom.example.myproject.OutputBufferFilter.doFilter\norg.mortbay.jetty.servlet.ServletHandler$CachedChain.doFilter\norg.mortbay.jetty.servlet.ServletHandler.handle\norg.mortbay.jetty.security.SecurityHandler.handle\norg.mortbay.jetty.servlet.SessionHandler.handle\norg.mortbay.jetty.handler.ContextHandler.handle\norg.mortbay.jetty.webapp.WebAppContext.handle\norg.mortbay.jetty.handler.HandlerWrapper.handle\norg.mortbay.jetty.Server.handle\norg.mortbay.jetty.HttpConnection.handleRequest\norg.mortbay.jetty.HttpConnection$RequestHandler.content\norg.mortbay.jetty.HttpParser.parseNext\norg.mortbay.jetty.HttpParser.parseAvailable\norg.mortbay.jetty.HttpConnection.handle\norg.mortbay.jetty.bio.SocketConnector$Connection.run\norg.mortbay.thread.QueuedThreadPool$PoolThread.run\n"
/-- tests/python/java.py:9 -/
def javaShort : Str := c!"#1 org.hibernate.exception.ConstraintViolationException: could not insert: [com.example.myproject.MyEntity]\n#2 \tat org.hibernate.exception.SQLStateConverter.convert(SQLStateConverter.java:96) [unknown]\n#3 \tat org.hibernate.exception.JDBCExceptionHelper.convert(JDBCExceptionHelper.java:66) [unknown]\n#4 \tat org.hibernate.id.insert.AbstractSelectingDelegate.performInsert(AbstractSelectingDelegate.java:64) [unknown]\n#5 com.example.myproject.MyProjectServletException\n#6 \tat com.example.myproject.MyServlet.doPost(MyServlet.java:169) [unknown]\n#7 \tat javax.servlet.http.HttpServlet.service(HttpServlet.java:727) [unknown]\n#8 \tat javax.servlet.http.HttpServlet.service(HttpServlet.java:820) [unknown]\n"
example : texts 4 java 8 = .ok (some (javaBt, some javaDup, some javaShort)) := by decide +kernel

/-- tests/ruby_stacktraces/ruby-01 -/
def ruby : Str := c!"/usr/share/ruby/vendor_ruby/will_crash.rb:13:in `rescue in block (2 levels) in func': Exception\nsuccessfully\nraised. (Wrap::MyException)\n\tfrom /usr/share/ruby/vendor_ruby/will_crash.rb:10:in `block (2 levels) in func'\n\tfrom /usr/share/ruby/vendor_ruby/will_crash.rb:9:in `times'\n\tfrom /usr/share/ruby/vendor_ruby/will_crash.rb:9:in `block in func'\n\tfrom /usr/share/ruby/vendor_ruby/will_crash.rb:8:in `times'\n\tfrom /usr/share/ruby/vendor_ruby/will_crash.rb:8:in `func'\n\tfrom /usr/share/ruby/vendor_ruby/will_crash.rb:30:in `block in <class:WillClass>'\n\tfrom /usr/share/ruby/vendor_ruby/will_crash.rb:28:in `times'\n\tfrom /usr/share/ruby/vendor_ruby/will_crash.rb:28:in `rescue in rescue in rescue in <class:WillClass>'\n\tfrom /usr/share/ruby/vendor_ruby/will_crash.rb:25:in `rescue in rescue in <class:WillClass>'\n\tfrom /usr/share/ruby/vendor_ruby/will_crash.rb:22:in `rescue in <class:WillClass>'\n\tfrom /usr/share/ruby/vendor_ruby/will_crash.rb:19:in `<class:WillClass>'\n\tfrom /usr/share/ruby/vendor_ruby/will_crash.rb:6:in `<top (required)>'\n\tfrom /usr/share/rubygems/rubygems/core_ext/kernel_require.rb:55:in `require'\n\tfrom /usr/share/rubygems/rubygems/core_ext/kernel_require.rb:55:in `require'\n\tfrom /usr/bin/will_ruby_raise:11:in `block (2 levels) in <module:WillModule>'\n\tfrom /usr/bin/will_ruby_raise:10:in `times'\n\tfrom /usr/bin/will_ruby_raise:10:in `block in <module:WillModule>'\n\tfrom /usr/bin/will_ruby_raise:9:in `times'\n\tfrom /usr/bin/will_ruby_raise:9:in `<module:WillModule>'\n\tfrom /usr/bin/will_ruby_raise:8:in `<main>'\n"
/-- Its SHA-1 is 6124e03542a0381b14ebaf2c5b5e9f467ebba33b (tests/python/ruby.py:69). -/
def rubyBt : Str := c!"Exception: Wrap::MyException\n\n/usr/share/ruby/vendor_ruby/will_crash.rb, 13, func, 0, 2, 1\n/usr/share/ruby/vendor_ruby/will_crash.rb, 10, func, 0, 2, 0\n/usr/share/ruby/vendor_ruby/will_crash.rb, 9, times, 0, 0, 0\n/usr/share/ruby/vendor_ruby/will_crash.rb, 9, func, 0, 1, 0\n/usr/share/ruby/vendor_ruby/will_crash.rb, 8, times, 0, 0, 0\n/usr/share/ruby/vendor_ruby/will_crash.rb, 8, func, 0, 0, 0\n/usr/share/ruby/vendor_ruby/will_crash.rb, 30, class:WillClass, 1, 1, 0\n/usr/share/ruby/vendor_ruby/will_crash.rb, 28, times, 0, 0, 0\n/usr/share/ruby/vendor_ruby/will_crash.rb, 28, class:WillClass, 1, 0, 3\n/usr/share/ruby/vendor_ruby/will_crash.rb, 25, class:WillClass, 1, 0, 2\n/usr/share/ruby/vendor_ruby/will_crash.rb, 22, class:WillClass, 1, 0, 1\n/usr/share/ruby/vendor_ruby/will_crash.rb, 19, class:WillClass, 1, 0, 0\n/usr/share/ruby/vendor_ruby/will_crash.rb, 6, top (required), 1, 0, 0\n/usr/share/rubygems/rubygems/core_ext/kernel_require.rb, 55, require, 0, 0, 0\n/usr/share/rubygems/rubygems/core_ext/kernel_require.rb, 55, require, 0, 0, 0\n/usr/bin/will_ruby_raise, 11, module:WillModule, 1, 2, 0\n/usr/bin/will_ruby_raise, 10, times, 0, 0, 0\n/usr/bin/will_ruby_raise, 10, module:WillModule, 1, 1, 0\n/usr/bin/will_ruby_raise, 9, times, 0, 0, 0\n/usr/bin/will_ruby_raise, 9, module:WillModule, 1, 0, 0\n/usr/bin/will_ruby_raise, 8, main, 1, 0, 0\n"
/-- Its SHA-1 is c877cda04fbce8d51c4d9b1d628b0f618677607e (tests/python/ruby.py:78). -/
def rubyDup : Str := c!"Thread\n/usr/share/ruby/vendor_ruby/will_crash.rb:13\n/usr/share/ruby/vendor_ruby/will_crash.rb:10\n/usr/share/ruby/vendor_ruby/will_crash.rb:9\n/usr/share/ruby/vendor_ruby/will_crash.rb:9\n/usr/share/ruby/vendor_ruby/will_crash.rb:8\n/usr/share/ruby/vendor_ruby/will_crash.rb:8\n/usr/share/ruby/vendor_ruby/will_crash.rb:30\n/usr/share/ruby/vendor_ruby/will_crash.rb:28\n/usr/share/ruby/vendor_ruby/will_crash.rb:28\n/usr/share/ruby/vendor_ruby/will_crash.rb:25\n/usr/share/ruby/vendor_ruby/will_crash.rb:22\n/usr/share/ruby/vendor_ruby/will_crash.rb:19\n/usr/share/ruby/vendor_ruby/will_crash.rb:6\n/usr/share/rubygems/rubygems/core_ext/kernel_require.rb:55\n/usr/share/rubygems/rubygems/core_ext/kernel_require.rb:55\n/usr/bin/will_ruby_raise:11\n/usr/bin/will_ruby_raise:10\n/usr/bin/will_ruby_raise:10\n/usr/bin/will_ruby_raise:9\n/usr/bin/will_ruby_raise:9\n/usr/bin/will_ruby_raise:8\n"
/-- tests/python/ruby.py:9 -/
def rubyShort : Str := c!"#1 rescue in block (2 levels) in func in /usr/share/ruby/vendor_ruby/will_crash.rb:13\n#2 block (2 levels) in func in /usr/share/ruby/vendor_ruby/will_crash.rb:10\n#3 times in /usr/share/ruby/vendor_ruby/will_crash.rb:9\n#4 block in func in /usr/share/ruby/vendor_ruby/will_crash.rb:9\n#5 times in /usr/share/ruby/vendor_ruby/will_crash.rb:8\n#6 func in /usr/share/ruby/vendor_ruby/will_crash.rb:8\n"
example : texts 6 ruby 6 = .ok (some (rubyBt, some rubyDup, some rubyShort)) := by decide +kernel

/-- tests/js_stacktraces/node-01 -/
def js : Str := c!"ReferenceError: nonexistentFunc is not defined\n    at Object.<anonymous> (/tmp/index.js:2:1)\n    at Module._compile (module.js:556:32)\n    at Object.Module._extensions..js (module.js:565:10)\n    at Module.load (module.js:473:32)\n    at tryModuleLoad (module.js:432:12)\n    at Function.Module._load (module.js:424:3)\n    at Module.runMain (module.js:590:10)\n    at run (bootstrap_node.js:394:7)\n    at startup (bootstrap_node.js:149:9)\n    at bootstrap_node.js:509:3\n"
/-- Its SHA-1 is f4b36e13fd620fc6c650241b5753f4629397c7d6 (tests/python/javascript.py:45). -/
def jsBt : Str := c!"Error: ReferenceError\n\n/tmp/index.js, 2, Object.<anonymous>\nmodule.js, 556, Module._compile\nmodule.js, 565, Object.Module._extensions..js\nmodule.js, 473, Module.load\nmodule.js, 432, tryModuleLoad\nmodule.js, 424, Function.Module._load\nmodule.js, 590, Module.runMain\nbootstrap_node.js, 394, run\nbootstrap_node.js, 149, startup\nbootstrap_node.js, 509, <unknown>\n"
/-- Its SHA-1 is e3c6aae82e127c2748a36fc3eec7c5eb41493fd3 (tests/python/javascript.py:55). -/
def jsDup : Str := c!"Thread\n/tmp/index.js:2\nmodule.js:556\nmodule.js:565\nmodule.js:473\nmodule.js:432\nmodule.js:424\nmodule.js:590\nbootstrap_node.js:394\nbootstrap_node.js:149\nbootstrap_node.js:509\n"
/-- tests/python/javascript.py:9 -/
def jsShort : Str := c!"#1 at Object.<anonymous> (/tmp/index.js:2:1)\n#2 at Module._compile (module.js:556:32)\n#3 at Object.Module._extensions..js (module.js:565:10)\n#4 at Module.load (module.js:473:32)\n#5 at tryModuleLoad (module.js:432:12)\n#6 at Function.Module._load (module.js:424:3)\n"
example : texts 7 js 6 = .ok (some (jsBt, some jsDup, some jsShort)) := by decide +kernel

end Satyr.Conformance.Hash
