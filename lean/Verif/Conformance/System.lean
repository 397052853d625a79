import Verif.Abrt.Model
/-!
# The unit tests of operating systems, packages and reports, run on the model

Inputs and expected results are those of tests/operating_system.c, tests/rpm.c, tests/abrt.c, tests/report.c, tests/problem_dir and
tests/json_files, which the C functions pass. The examples do not prove anything for all inputs; they are evidence that the model is a
model of the code.
-/
namespace Satyr.Conformance.System
open Satyr.CStr Satyr.Rpm Satyr.Os Satyr.Report

set_option maxRecDepth 40000

/-! `test_operating_system_parse_etc_system_release` (tests/operating_system.c:68-83) -/

example : parseSystemRelease c!"Fedora release 16 (Verne)" = some (c!"fedora", c!"16") := by decide +kernel
example : parseSystemRelease c!"Red Hat Enterprise Linux release 6.2" = some (c!"rhel", c!"6.2") := by decide +kernel
example : parseSystemRelease c!"CentOS release 6.5 (Final)" = some (c!"centos", c!"6.5") := by decide +kernel

/-! `test_operating_system_parse_etc_os_release` (tests/operating_system.c:86-103). The tests do not look at the CPE; it is the one in the text. -/

example : parseEtcOsRelease
    c!"NAME=Fedora\nVERSION=\"19 (Schr\xc3\xb6dinger\xe2\x80\x99s Cat)\"\nID=fedora\nVERSION_ID=19\nPRETTY_NAME=\"Fedora 19 (Schr\xc3\xb6dinger\xe2\x80\x99s Cat)\"\nANSI_COLOR=\"0;34\"\nCPE_NAME=\"cpe:/o:fedoraproject:fedora:19\"\n"
    {} = (true, { name := some c!"fedora", version := some c!"19", cpe := some c!"cpe:/o:fedoraproject:fedora:19" }) := by decide +kernel

example : parseEtcOsRelease
    c!"NAME=Fedora\nVERSION=\"23 (Workstation Edition)\"\nID=fedora\nVERSION_ID=23\nPRETTY_NAME=\"Fedora 23 (Workstation Edition)\"\nANSI_COLOR=\"0;34\"\nCPE_NAME=\"cpe:/o:fedoraproject:fedora:23\"\nHOME_URL=\"https://fedoraproject.org/\"\nBUG_REPORT_URL=\"https://bugzilla.redhat.com/\"\nREDHAT_BUGZILLA_PRODUCT=\"Fedora\"\nREDHAT_BUGZILLA_PRODUCT_VERSION=23\nREDHAT_SUPPORT_PRODUCT=\"Fedora\"\nREDHAT_SUPPORT_PRODUCT_VERSION=23\nPRIVACY_POLICY_URL=https://fedoraproject.org/wiki/Legal:PrivacyPolicy\nVARIANT=\"Workstation Edition\"\nVARIANT_ID=workstation\n"
    {} = (true, { name := some c!"fedora", version := some c!"23", cpe := some c!"cpe:/o:fedoraproject:fedora:23", variant := some c!"workstation" }) := by decide +kernel

example : parseEtcOsRelease
    c!"NAME=Fedora\nVERSION=\"20 (Rawhide)\"\nID=fedora\nVERSION_ID=20\nPRETTY_NAME=\"Fedora 20 (Rawhide)\"\nANSI_COLOR=\"0;34\"\nCPE_NAME=\"cpe:/o:fedoraproject:fedora:20\"\nREDHAT_BUGZILLA_PRODUCT=\"Fedora\"\nREDHAT_BUGZILLA_PRODUCT_VERSION=Rawhide\nREDHAT_SUPPORT_PRODUCT=\"Fedora\"\nREDHAT_SUPPORT_PRODUCT_VERSION=Rawhide\n"
    {} = (true, { name := some c!"fedora", version := some c!"rawhide", cpe := some c!"cpe:/o:fedoraproject:fedora:20" }) := by decide +kernel

example : parseEtcOsRelease
    c!"NAME=\"Red Hat Enterprise Linux Workstation\"\nVERSION=\"7.0 (Codename)\"\nID=\"rhel\"\nVERSION_ID=\"7.0\"\nPRETTY_NAME=\"Red Hat Enterprise Linux Workstation 7.0 (Codename)\"\nANSI_COLOR=\"0;31\"\nCPE_NAME=\"cpe:/o:redhat:enterprise_linux:7.0:beta:workstation\"\n\nREDHAT_BUGZILLA_PRODUCT=\"Red Hat Enterprise Linux 7\"\nREDHAT_BUGZILLA_PRODUCT_VERSION=7.0\nREDHAT_SUPPORT_PRODUCT=\"Red Hat Enterprise Linux\"\nREDHAT_SUPPORT_PRODUCT_VERSION=7.0\n"
    {} = (true, { name := some c!"rhel", version := some c!"7.0", cpe := some c!"cpe:/o:redhat:enterprise_linux:7.0:beta:workstation" }) := by decide +kernel

/-! `test_rpm_package_cmp` (tests/rpm.c:10-45) -/

example : Rpm.cmp { name := some c!"coreutils", version := some c!"8.32", release := some c!"19.fc33", architecture := some c!"x86_64", installTime := 1627139000 }
    { name := some c!"coreutils", version := some c!"8.32", release := some c!"21.fc33", architecture := some c!"x86_64", installTime := 1627139000 } < 0 := by decide +kernel
example : Rpm.cmp { name := some c!"coreutils", version := some c!"8.32", release := some c!"21.fc33", architecture := some c!"x86_64", installTime := 1627142600 }
    { name := some c!"coreutils", version := some c!"8.32", release := some c!"21.fc33", architecture := some c!"x86_64", installTime := 1627139000 } > 0 := by decide +kernel
example : Rpm.cmp { name := some c!"coreutils", version := some c!"8.32", release := some c!"21.fc33", architecture := some c!"x86_64", installTime := 1627139000 }
    { name := some c!"coreutils", version := some c!"8.32", release := some c!"21.fc33", architecture := some c!"x86_64", installTime := 1627139000 } = 0 := by decide +kernel

/-! `test_rpm_package_parse_nvr`, `test_rpm_package_parse_nevra` (tests/rpm.c:48-64, 67-89) -/

example : parseNvr c!"coreutils-8.4-19.el6" = some (c!"coreutils", c!"8.4", c!"19.el6") := by decide +kernel
example : parseNevra c!"glibc-2.12-1.80.el6_3.5.x86_64" =
    .ok c!"glibc" 0 c!"2.12" c!"1.80.el6_3.5" c!"x86_64" := by decide +kernel

/-! `test_rpm_package_uniq_1`, `_2`, `_3` (tests/rpm.c:92-141, 144-193, 196-233). The third test sets a time twice and leaves another one 0. -/

example : uniq [{ name := some c!"coreutils", version := some c!"8.15", release := some c!"10.fc17", role := .affected },
    { name := some c!"coreutils", version := some c!"8.15", release := some c!"10.fc17", architecture := some c!"x86_64", installTime := 1363628422 },
    { name := some c!"glibc", version := some c!"2.15", release := some c!"58.fc17", architecture := some c!"x86_64", installTime := 1363628422 }] =
  [{ name := some c!"coreutils", version := some c!"8.15", release := some c!"10.fc17", architecture := some c!"x86_64", installTime := 1363628422, role := .affected },
    { name := some c!"glibc", version := some c!"2.15", release := some c!"58.fc17", architecture := some c!"x86_64", installTime := 1363628422 }] := by decide +kernel

example : uniq [{ name := some c!"glibc", version := some c!"2.15", release := some c!"58.fc17", architecture := some c!"x86_64", installTime := 1363628422 },
    { name := some c!"coreutils", version := some c!"8.15", release := some c!"10.fc17" },
    { name := some c!"coreutils", version := some c!"8.15", release := some c!"10.fc17", architecture := some c!"x86_64", installTime := 1363628422, role := .affected }] =
  [{ name := some c!"glibc", version := some c!"2.15", release := some c!"58.fc17", architecture := some c!"x86_64", installTime := 1363628422 },
    { name := some c!"coreutils", version := some c!"8.15", release := some c!"10.fc17", architecture := some c!"x86_64", installTime := 1363628422, role := .affected }] := by decide +kernel

example : uniq [{ name := some c!"pango", version := some c!"1.32.3", release := some c!"1.fc18", architecture := some c!"x86_64" },
    { name := some c!"pango", version := some c!"1.32.3", release := some c!"1.fc18", architecture := some c!"x86_64", installTime := 1363628422 },
    { name := some c!"pango", version := some c!"1.32.3", release := some c!"1.fc18", architecture := some c!"x86_64", installTime := 1363628422 }] =
  [{ name := some c!"pango", version := some c!"1.32.3", release := some c!"1.fc18", architecture := some c!"x86_64", installTime := 1363628422 }] := by decide +kernel

/-! `test_abrt_parse_dso_list` (tests/abrt.c:7-67): the first package and the last one, and the number of lines. -/

/-- The list of the test. -/
def dsoList : Str :=
  c!"/lib64/libbz2.so.1.0.4 bzip2-libs-1.0.5-7.el6_0.x86_64 (Scientific Linux) 1342032228\n/usr/lib64/libnssutil3.so nss-util-3.13.5-1.el6_3.x86_64 (Scientific Linux) 1342664268\n/usr/lib64/libunwind-coredump.so.0.0.0 libunwind-1.1-1.fc19.x86_64 (None) 1350312182\n/usr/lib64/librpm.so.1.0.0 rpm-libs-4.8.0-27.el6.x86_64 (Scientific Linux) 1348232255\n/lib64/libacl.so.1.1.0 libacl-2.2.49-6.el6.x86_64 (Scientific Linux) 1342032227\n/usr/lib64/libelf-0.152.so elfutils-libelf-0.152-1.el6.x86_64 (Scientific Linux) 1342032254\n/lib64/libnspr4.so nspr-4.9.1-2.el6_3.x86_64 (Scientific Linux) 1342664267\n/usr/lib64/libnss3.so nss-3.13.5-1.el6_3.x86_64 (Scientific Linux) 1342664269\n/lib64/libm-2.12.so glibc-2.12-1.80.el6_3.5.x86_64 (Scientific Linux) 1346116822\n/lib64/libplc4.so nspr-4.9.1-2.el6_3.x86_64 (Scientific Linux) 1342664267\n/lib64/libcap.so.2.16 libcap-2.16-5.5.el6.x86_64 (Scientific Linux) 1342032219\n/lib64/libdl-2.12.so glibc-2.12-1.80.el6_3.5.x86_64 (Scientific Linux) 1346116822\n/lib64/libdb-4.7.so db4-4.7.25-17.el6.x86_64 (Scientific Linux) 1348232155\n/lib64/libplds4.so nspr-4.9.1-2.el6_3.x86_64 (Scientific Linux) 1342664267\n/usr/lib64/liblua-5.1.so lua-5.1.4-4.1.el6.x86_64 (Scientific Linux) 1342032244\n/usr/lib64/librpmio.so.1.0.0 rpm-libs-4.8.0-27.el6.x86_64 (Scientific Linux) 1348232255\n/lib64/libpopt.so.0.0.0 popt-1.13-7.el6.x86_64 (Scientific Linux) 1342032221\n/usr/lib64/liblzma.so.0.0.0 xz-libs-4.999.9-0.3.beta.20091007git.el6.x86_64 (Scientific Linux) 1342032252\n/lib64/libz.so.1.2.3 zlib-1.2.3-27.el6.x86_64 (Scientific Linux) 1342032220\n/usr/lib64/libunwind-x86_64.so.8.0.1 libunwind-1.1-1.fc19.x86_64 (None) 1350312182\n/lib64/libgcc_s-4.4.6-20120305.so.1 libgcc-4.4.6-4.el6.x86_64 (Scientific Linux) 1348232150\n/lib64/ld-2.12.so glibc-2.12-1.80.el6_3.5.x86_64 (Scientific Linux) 1346116822\n/lib64/libattr.so.1.1.0 libattr-2.4.44-7.el6.x86_64 (Scientific Linux) 1342032219\n/lib64/librt-2.12.so glibc-2.12-1.80.el6_3.5.x86_64 (Scientific Linux) 1346116822\n/lib64/libc-2.12.so glibc-2.12-1.80.el6_3.5.x86_64 (Scientific Linux) 1346116822\n/lib64/libselinux.so.1 libselinux-2.0.94-5.3.el6.x86_64 (Scientific Linux) 1348232151\n/usr/lib64/libunwind.so.8.0.1 libunwind-1.1-1.fc19.x86_64 (None) 1350312182\n/lib64/libpthread-2.12.so glibc-2.12-1.80.el6_3.5.x86_64 (Scientific Linux) 1346116822\n"

/-- What the test looks at. -/
def ends : Out (List Package) → Option (Option Package × Option Package × Nat)
  | .ok l => some (l.head?, l.getLast?, l.length)
  | _ => none

example : ends (parseDsoList dsoList) = some
    (some { name := some c!"bzip2-libs", version := some c!"1.0.5", release := some c!"7.el6_0", architecture := some c!"x86_64", installTime := 1342032228 },
     some { name := some c!"glibc", version := some c!"2.12", release := some c!"1.80.el6_3.5", architecture := some c!"x86_64", installTime := 1346116822 }, 28) := by
  decide +kernel

/-! `test_report_type_to_string`, `test_report_type_from_string` (tests/report.c:10-37, 40-66) -/

example : typeToString 0 = c!"invalid" := by decide +kernel
example : typeToString 1 = c!"core" := by decide +kernel
example : typeToString 3 = c!"kerneloops" := by decide +kernel
example : typeToString 5 = c!"gdb" := by decide +kernel
example : typeToString 6 = c!"ruby" := by decide +kernel
example : typeToString 7 = c!"javascript" := by decide +kernel
example : typeToString 8 = c!"invalid" := by decide +kernel
example : typeToString 5000 = c!"invalid" := by decide +kernel
example : typeToString (-42) = c!"invalid" := by decide +kernel
example : typeFromString (some c!"invalid") = 0 := by decide +kernel
example : typeFromString (some c!"core") = 1 := by decide +kernel
example : typeFromString (some c!"python") = 2 := by decide +kernel
example : typeFromString (some c!"gdb") = 5 := by decide +kernel
example : typeFromString (some c!"ruby") = 6 := by decide +kernel
example : typeFromString (some c!"javascript") = 7 := by decide +kernel
example : typeFromString none = 0 := by decide +kernel
example : typeFromString (some c!"visual basic") = 0 := by decide +kernel

/-! `test_report_add_auth` (tests/report.c:69-128): `sr_report_add_auth` puts an entry in front. -/

/-- A new report after the three calls. -/
def authReport : UReport :=
  { reporterName := c!"satyr", reporterVersion := c!"1",
     auth := [(c!"satyr", c!"wonderful"), (c!"abrt", c!"awesome"), (c!"foo", c!"blah")] }

/-- The text of a report and the entries after reading it again. -/
def again (r : UReport) : Option (Str × List (Str × Str)) :=
  match toJson r with
  | .ok s => match (Json.parse s).map (fromJson c!"satyr" c!"1") with
    | some (.ok (some q)) => some (s, q.auth)
    | _ => none
  | _ => none

example : (again authReport).map (fun p => p.2) = some authReport.auth := by decide +kernel
example : (again authReport).map (fun p => authReport.auth.all fun e => strstrHas p.1 (c!"\"" ++ e.1 ++ c!"\": \"" ++ e.2 ++ c!"\"")) = some true := by
  decide +kernel

/-! `test_abrt_report_from_dir` (tests/report.c:131-197) on tests/problem_dir, of which the files that are
read are given here; `environ` has no line with a desktop session and only its first lines are kept. -/

/-- tests/problem_dir -/
def problemDir : Abrt.Dir where
  exist n := [c!"package", c!"dso_list", c!"core_backtrace", c!"os_info", c!"os_release", c!"type", c!"count"].contains n
  contents n :=
    if n = c!"type" then some c!"CCpp" else
    if n = c!"os_info" then some c!"NAME=Fedora\nVERSION=\"24 (Workstation Edition)\"\nID=fedora\nVERSION_ID=24\nPRETTY_NAME=\"Fedora 24 (Workstation Edition)\"\nANSI_COLOR=\"0;34\"\nCPE_NAME=\"cpe:/o:fedoraproject:fedora:24\"\nHOME_URL=\"https://fedoraproject.org/\"\nBUG_REPORT_URL=\"https://bugzilla.redhat.com/\"\nREDHAT_BUGZILLA_PRODUCT=\"Fedora\"\nREDHAT_BUGZILLA_PRODUCT_VERSION=24\nREDHAT_SUPPORT_PRODUCT=\"Fedora\"\nREDHAT_SUPPORT_PRODUCT_VERSION=24\nPRIVACY_POLICY_URL=https://fedoraproject.org/wiki/Legal:PrivacyPolicy\nVARIANT=\"Workstation Edition\"\nVARIANT_ID=workstation\n" else
    if n = c!"os_release" then some c!"Fedora release 24 (Twenty Four)" else
    if n = c!"architecture" then some c!"x86_64" else
    if n = c!"environ" then some c!"HOSTNAME=dhcp-24-126.brq.redhat.com\nSHELL=/bin/bash\nTERM=xterm-256color\nHISTSIZE=1000\nUSER=root\n" else
    if n = c!"component" then some c!"coreutils" else
    if n = c!"pkg_epoch" then some c!"0" else
    if n = c!"pkg_name" then some c!"coreutils" else
    if n = c!"pkg_version" then some c!"8.25" else
    if n = c!"pkg_release" then some c!"5.fc24" else
    if n = c!"pkg_arch" then some c!"x86_64" else
    if n = c!"dso_list" then some c!"/usr/lib64/libc-2.23.so glibc-2.23.1-5.fc24.x86_64 (Fedora Project) 1460022605\n/usr/lib64/ld-2.23.so glibc-2.23.1-5.fc24.x86_64 (Fedora Project) 1460022605\n/usr/lib/locale/locale-archive glibc-all-langpacks-2.23.1-5.fc24.x86_64 (Fedora Project) 1460024921\n/usr/bin/sleep coreutils-8.25-5.fc24.x86_64 (Fedora Project) 1460022612\n" else
    if n = c!"count" then some c!"55" else
    if n = c!"core_backtrace" then some c!"{   \"signal\": 11\n,   \"executable\": \"/usr/bin/sleep\"\n,   \"only_crash_thread\": true\n,   \"stacktrace\":\n      [ {   \"crash_thread\": true\n        ,   \"frames\":\n              [ {   \"address\": 140598631418400\n                ,   \"build_id\": \"fbac2849c88def5897d3d3c1cd5adab0bcc1aec2\"\n                ,   \"build_id_offset\": 850464\n                ,   \"function_name\": \"__nanosleep\"\n                ,   \"file_name\": \"/usr/lib64/libc-2.23.so\"\n                }\n              , {   \"address\": 93917296833631\n                ,   \"build_id\": \"34b2e7fddf5ad18542382e4407c92a7c18eb6c9e\"\n                ,   \"build_id_offset\": 17503\n                ,   \"function_name\": \"rpl_nanosleep\"\n                ,   \"file_name\": \"/usr/bin/sleep\"\n                }\n              , {   \"address\": 93917296833216\n                ,   \"build_id\": \"34b2e7fddf5ad18542382e4407c92a7c18eb6c9e\"\n                ,   \"build_id_offset\": 17088\n                ,   \"function_name\": \"xnanosleep\"\n                ,   \"file_name\": \"/usr/bin/sleep\"\n                }\n              , {   \"address\": 93917296822397\n                ,   \"build_id\": \"34b2e7fddf5ad18542382e4407c92a7c18eb6c9e\"\n                ,   \"build_id_offset\": 6269\n                ,   \"function_name\": \"main\"\n                ,   \"file_name\": \"/usr/bin/sleep\"\n                } ]\n        } ]\n}\n" else
    if n = c!"package" then some c!"coreutils-8.25-5.fc24" else
    none

/-- A sorting function: insertion. -/
def insert (c : Package → Package → Int) (p : Package) : List Package → List Package
  | [] => [p]
  | q :: l => if c p q ≤ 0 then p :: q :: l else q :: insert c p l
/-- A sorting function: insertion of each element. -/
def isort (c : Package → Package → Int) (l : List Package) : List Package := l.foldr (insert c) []

/-- The report with the version of the test, as JSON text. -/
def dirReport : Option Str :=
  match Abrt.report isort c!"satyr" c!"0.20.dirty" 0 problemDir false with
  | .ok (some r, _) => match toJson r with
    | .ok s => some s
    | _ => none
  | _ => none

example : dirReport = some c!"{   \"ureport_version\": 2\n,   \"reason\": \"Program /usr/bin/sleep was terminated by signal 11\"\n,   \"reporter\": {   \"name\": \"satyr\"\n                ,   \"version\": \"0.20.dirty\"\n                }\n,   \"os\": {   \"name\": \"fedora\"\n          ,   \"version\": \"24\"\n          ,   \"architecture\": \"x86_64\"\n          ,   \"cpe\": \"cpe:/o:fedoraproject:fedora:24\"\n          ,   \"variant\": \"workstation\"\n          }\n,   \"problem\": {   \"type\": \"core\"\n               ,   \"component\": \"coreutils\"\n               ,   \"user\": {   \"root\": false\n                           ,   \"local\": true\n                           }\n               ,   \"serial\": 55\n               ,   \"signal\": 11\n               ,   \"executable\": \"/usr/bin/sleep\"\n               ,   \"only_crash_thread\": true\n               ,   \"stacktrace\":\n                     [ {   \"crash_thread\": true\n                       ,   \"frames\":\n                             [ {   \"address\": 140598631418400\n                               ,   \"build_id\": \"fbac2849c88def5897d3d3c1cd5adab0bcc1aec2\"\n                               ,   \"build_id_offset\": 850464\n                               ,   \"function_name\": \"__nanosleep\"\n                               ,   \"file_name\": \"/usr/lib64/libc-2.23.so\"\n                               }\n                             , {   \"address\": 93917296833631\n                               ,   \"build_id\": \"34b2e7fddf5ad18542382e4407c92a7c18eb6c9e\"\n                               ,   \"build_id_offset\": 17503\n                               ,   \"function_name\": \"rpl_nanosleep\"\n                               ,   \"file_name\": \"/usr/bin/sleep\"\n                               }\n                             , {   \"address\": 93917296833216\n                               ,   \"build_id\": \"34b2e7fddf5ad18542382e4407c92a7c18eb6c9e\"\n                               ,   \"build_id_offset\": 17088\n                               ,   \"function_name\": \"xnanosleep\"\n                               ,   \"file_name\": \"/usr/bin/sleep\"\n                               }\n                             , {   \"address\": 93917296822397\n                               ,   \"build_id\": \"34b2e7fddf5ad18542382e4407c92a7c18eb6c9e\"\n                               ,   \"build_id_offset\": 6269\n                               ,   \"function_name\": \"main\"\n                               ,   \"file_name\": \"/usr/bin/sleep\"\n                               } ]\n                       } ]\n               }\n,   \"packages\": [ {   \"name\": \"coreutils\"\n                  ,   \"epoch\": 0\n                  ,   \"version\": \"8.25\"\n                  ,   \"release\": \"5.fc24\"\n                  ,   \"architecture\": \"x86_64\"\n                  ,   \"install_time\": 1460022612\n                  ,   \"package_role\": \"affected\"\n                  }\n                , {   \"name\": \"glibc\"\n                  ,   \"epoch\": 0\n                  ,   \"version\": \"2.23.1\"\n                  ,   \"release\": \"5.fc24\"\n                  ,   \"architecture\": \"x86_64\"\n                  ,   \"install_time\": 1460022605\n                  }\n                , {   \"name\": \"glibc-all-langpacks\"\n                  ,   \"epoch\": 0\n                  ,   \"version\": \"2.23.1\"\n                  ,   \"release\": \"5.fc24\"\n                  ,   \"architecture\": \"x86_64\"\n                  ,   \"install_time\": 1460024921\n                  } ]\n}" := by decide +kernel

end Satyr.Conformance.System
