import Verif.Model.Seccomp
import Verif.Model.Promises

/-!
# Specification: what each promise permits

Written per system call, with literal x86-64 numbers and bit positions, and without any instruction, label, mask or fragment.
Only the vocabulary types are shared with the model: `Promise`, `SeccompData`, `Ids`.

`Permits ids p d` is "promise `p` permits the call recorded in `d`"; `ids` are the pid and tid of the pledging thread.
It is the *actual* policy. Where it differs from what the comments in /repo say, the rule says so.
-/
set_option autoImplicit false

namespace Spec
open Pledge Bpfvm

/-- Low half of argument `i` (counted from 0): what the kernel uses for an `int`/`unsigned` argument. -/
def arg (d : SeccompData) (i : Fin 6) : BitVec 32 := (d.args i).setWidth 32

/-- No bit at one of these positions is set. -/
def hasNone (x : BitVec 32) (bits : List Nat) : Prop := ∀ i ∈ bits, x.getLsbD i = false

/-- All bits at these positions are set. -/
def hasAll (x : BitVec 32) (bits : List Nat) : Prop := ∀ i ∈ bits, x.getLsbD i = true

/-- Socket type `t`, possibly combined with SOCK_NONBLOCK (0x800) and SOCK_CLOEXEC (0x80000). -/
def isSockType (x t : BitVec 32) : Prop := ∃ fl, fl ∈ [0x0#32, 0x800#32, 0x80000#32, 0x80800#32] ∧ x = t ||| fl

/-- Calls permitted with any arguments: number, name, promises. -/
def freeTable : List (Nat × String × List Promise) := [
  (0, "read", [.StdIO, .Dns]),
  (1, "write", [.StdIO]),
  (3, "close", [.StdIO, .Dns]),
  (4, "stat", [.RPath, .WPath]),
  (5, "fstat", [.StdIO, .RPath, .WPath]),
  (6, "lstat", [.RPath, .WPath, .TmpPath]),
  (7, "poll", [.StdIO]),
  (8, "lseek", [.StdIO]),
  (10, "mprotect", [.ProtExec]),
  (11, "munmap", [.StdIO]),
  (12, "brk", [.StdIO]),
  (13, "rt_sigaction", [.StdIO]),
  (14, "rt_sigprocmask", [.StdIO]),
  (15, "rt_sigreturn", [.StdIO]),
  (17, "pread64", [.StdIO]),
  (18, "pwrite64", [.StdIO]),
  (19, "readv", [.StdIO]),
  (20, "writev", [.StdIO]),
  (21, "access", [.RPath, .WPath]),
  (22, "pipe", [.StdIO]),
  (23, "select", [.StdIO]),
  (24, "sched_yield", [.StdIO, .VmInfo]),
  (25, "mremap", [.StdIO]),
  (26, "msync", [.StdIO]),
  (27, "mincore", [.StdIO]),
  (28, "madvise", [.StdIO]),
  (32, "dup", [.StdIO]),
  (33, "dup2", [.StdIO]),
  (34, "pause", [.StdIO]),
  (35, "nanosleep", [.StdIO]),
  (36, "getitimer", [.StdIO]),
  (37, "alarm", [.StdIO]),
  (38, "setitimer", [.StdIO]),
  (39, "getpid", [.StdIO]),
  (40, "sendfile", [.StdIO]),
  (42, "connect", [.Inet, .Unix, .Dns]),
  (43, "accept", [.Inet, .Unix]),
  (44, "sendto", [.Inet, .Unix, .Dns]),
  (45, "recvfrom", [.StdIO, .Dns]),
  (47, "recvmsg", [.RecvFd, .SendFd]),
  (48, "shutdown", [.StdIO]),
  (49, "bind", [.Inet, .Unix, .Dns]),
  (50, "listen", [.Inet, .Unix]),
  (51, "getsockname", [.Inet, .Unix]),
  (52, "getpeername", [.Inet, .Unix]),
  (53, "socketpair", [.StdIO]),
  (57, "fork", [.Proc]),
  (58, "vfork", [.Proc]),
  (59, "execve", [.Exec]),
  (60, "exit", [.Default]),
  (61, "wait4", [.StdIO]),
  (62, "kill", [.Proc]),
  (63, "uname", [.StdIO]),
  (73, "flock", [.FLock]),
  (74, "fsync", [.StdIO]),
  (75, "fdatasync", [.StdIO]),
  (76, "truncate", [.WPath]),
  (77, "ftruncate", [.StdIO]),
  (78, "getdents", [.RPath]),
  (79, "getcwd", [.RPath, .WPath]),
  (80, "chdir", [.RPath]),
  (81, "fchdir", [.StdIO]),
  (82, "rename", [.CPath]),
  (83, "mkdir", [.CPath]),
  (84, "rmdir", [.CPath]),
  (86, "link", [.CPath]),
  (87, "unlink", [.CPath, .TmpPath]),
  (88, "symlink", [.CPath]),
  (89, "readlink", [.RPath]),
  (92, "chown", [.Chown]),
  (93, "fchown", [.Chown]),
  (94, "lchown", [.Chown]),
  (95, "umask", [.StdIO]),
  (96, "gettimeofday", [.StdIO]),
  (97, "getrlimit", [.StdIO]),
  (98, "getrusage", [.StdIO]),
  (99, "sysinfo", [.StdIO]),
  (100, "times", [.StdIO]),
  (102, "getuid", [.StdIO]),
  (104, "getgid", [.StdIO]),
  (105, "setuid", [.Id]),
  (106, "setgid", [.Id]),
  (107, "geteuid", [.StdIO]),
  (108, "getegid", [.StdIO]),
  (109, "setpgid", [.Proc]),
  (110, "getppid", [.StdIO]),
  (111, "getpgrp", [.StdIO]),
  (112, "setsid", [.Proc]),
  (113, "setreuid", [.Id]),
  (114, "setregid", [.Id]),
  (115, "getgroups", [.StdIO]),
  (116, "setgroups", [.Id]),
  (117, "setresuid", [.Id]),
  (118, "getresuid", [.StdIO]),
  (119, "setresgid", [.Id]),
  (120, "getresgid", [.StdIO]),
  (121, "getpgid", [.StdIO]),
  (122, "setfsuid", [.Id]),
  (123, "setfsgid", [.Id]),
  (124, "getsid", [.StdIO]),
  (127, "rt_sigpending", [.StdIO]),
  (130, "rt_sigsuspend", [.StdIO]),
  (131, "sigaltstack", [.StdIO]),
  (132, "utime", [.FAttr]),
  (133, "mknod", [.DPath]),
  (137, "statfs", [.RPath]),
  (138, "fstatfs", [.RPath]),
  (140, "getpriority", [.Proc, .Id]),
  (141, "setpriority", [.Proc, .Id]),
  (142, "sched_setparam", [.Proc]),
  (143, "sched_getparam", [.Proc]),
  (144, "sched_setscheduler", [.Proc]),
  (145, "sched_getscheduler", [.Proc]),
  (146, "sched_get_priority_max", [.Proc]),
  (147, "sched_get_priority_min", [.Proc]),
  (158, "arch_prctl", [.StdIO]),
  (160, "setrlimit", [.Proc, .Id]),
  (164, "settimeofday", [.SetTime]),
  (186, "gettid", [.StdIO]),
  (200, "tkill", [.Proc]),
  (202, "futex", [.StdIO]),
  (203, "sched_setaffinity", [.Proc]),
  (204, "sched_getaffinity", [.StdIO, .Proc]),
  (213, "epoll_create", [.StdIO]),
  (218, "set_tid_address", [.StdIO]),
  (219, "restart_syscall", [.StdIO]),
  (221, "fadvise64", [.StdIO]),
  (228, "clock_gettime", [.StdIO]),
  (229, "clock_getres", [.StdIO]),
  (230, "clock_nanosleep", [.StdIO]),
  (231, "exit_group", [.StdIO]),
  (232, "epoll_wait", [.StdIO]),
  (233, "epoll_ctl", [.StdIO]),
  (234, "tgkill", [.Proc]),
  (235, "utimes", [.FAttr]),
  (251, "ioprio_set", [.Proc]),
  (252, "ioprio_get", [.Proc]),
  (256, "migrate_pages", [.StdIO]),
  (258, "mkdirat", [.CPath]),
  (259, "mknodat", [.DPath]),
  (260, "fchownat", [.Chown]),
  (261, "futimesat", [.FAttr]),
  (262, "newfstatat", [.RPath, .WPath, .Dns]),
  (263, "unlinkat", [.CPath, .TmpPath]),
  (264, "renameat", [.CPath]),
  (265, "linkat", [.CPath]),
  (266, "symlinkat", [.CPath]),
  (267, "readlinkat", [.RPath, .WPath]),
  (269, "faccessat", [.RPath, .WPath]),
  (270, "pselect6", [.StdIO]),
  (271, "ppoll", [.StdIO]),
  (273, "set_robust_list", [.StdIO]),
  (274, "get_robust_list", [.StdIO]),
  (275, "splice", [.StdIO]),
  (276, "tee", [.StdIO]),
  (277, "sync_file_range", [.StdIO]),
  (278, "vmsplice", [.StdIO]),
  (280, "utimensat", [.FAttr]),
  (281, "epoll_pwait", [.StdIO]),
  (282, "signalfd", [.StdIO]),
  (283, "timerfd_create", [.StdIO]),
  (284, "eventfd", [.StdIO]),
  (286, "timerfd_settime", [.StdIO]),
  (287, "timerfd_gettime", [.StdIO]),
  (288, "accept4", [.Inet, .Unix]),
  (289, "signalfd4", [.StdIO]),
  (290, "eventfd2", [.StdIO]),
  (291, "epoll_create1", [.StdIO]),
  (292, "dup3", [.StdIO]),
  (293, "pipe2", [.StdIO]),
  (295, "preadv", [.StdIO]),
  (296, "pwritev", [.StdIO]),
  (299, "recvmmsg", [.RecvFd, .SendFd]),
  (302, "prlimit64", [.Proc, .Id]),
  (305, "clock_adjtime", [.SetTime]),
  (316, "renameat2", [.CPath]),
  (318, "getrandom", [.StdIO]),
  (322, "execveat", [.Exec]),
  (324, "membarrier", [.StdIO]),
  (326, "copy_file_range", [.StdIO]),
  (327, "preadv2", [.StdIO]),
  (328, "pwritev2", [.StdIO]),
  (436, "close_range", [.StdIO]),
  (439, "faccessat2", [.RPath, .WPath]),
  (441, "epoll_pwait2", [.StdIO]),
  (444, "landlock_create_ruleset", [.Unveil]),
  (445, "landlock_add_rule", [.Unveil]),
  (446, "landlock_restrict_self", [.Unveil])]

/-- Promise `p` permits system call number `nr` whatever its arguments. -/
def Free (nr : Nat) (p : Promise) : Prop := ∃ name ps, (nr, name, ps) ∈ freeTable ∧ p ∈ ps

/-- Calls permitted under a condition on the arguments. -/
inductive ArgRule (ids : Ids) (d : SeccompData) : Promise → Prop
  /-- fcntl(fd, cmd): F_DUPFD, F_GETFD, F_SETFD, F_GETFL, F_SETFL (0-4), F_DUPFD_CLOEXEC (1030). -/
  | fcntl_stdio : d.nr = 72 → (arg d 1).toNat ≤ 4 ∨ arg d 1 = 1030 → ArgRule ids d .StdIO
  /-- fcntl(fd, cmd): F_GETLK, F_SETLK, F_SETLKW. -/
  | fcntl_flock : d.nr = 72 → arg d 1 ∈ [5#32, 6#32, 7#32] → ArgRule ids d .FLock
  /-- mmap(addr, len, prot, flags): prot 0, 1 or 2 (PROT_READ|PROT_WRITE = 3 is *not* permitted); no
  MAP_LOCKED (bit 13), MAP_POPULATE (15), MAP_NONBLOCK (16), MAP_HUGETLB (18). -/
  | mmap_stdio : d.nr = 9 → (arg d 2).toNat ≤ 2 → hasNone (arg d 3) [13, 15, 16, 18] → ArgRule ids d .StdIO
  /-- mmap with any protection; no MAP_LOCKED, MAP_NONBLOCK, MAP_HUGETLB. -/
  | mmap_protexec : d.nr = 9 → hasNone (arg d 3) [13, 16, 18] → ArgRule ids d .ProtExec
  /-- mprotect(addr, len, prot): no bit but PROT_READ (bit 0) and PROT_WRITE (bit 1). -/
  | mprotect_stdio : d.nr = 10 → (∀ i, 2 ≤ i → (arg d 2).getLsbD i = false) → ArgRule ids d .StdIO
  /-- sendto(fd, buf, len, flags, addr, addrlen): addr is NULL, all 64 bits. -/
  | sendto_stdio : d.nr = 44 → d.args 4 = 0 → ArgRule ids d .StdIO
  /-- ioctl(fd, req): FIONREAD, FIONBIO, FIOCLEX, FIONCLEX. -/
  | ioctl_stdio : d.nr = 16 → arg d 1 ∈ [0x541B#32, 0x5421#32, 0x5451#32, 0x5450#32] → ArgRule ids d .StdIO
  /-- ioctl: SIOCATMARK. -/
  | ioctl_inet : d.nr = 16 → arg d 1 = 0x8905 → ArgRule ids d .Inet
  /-- ioctl: TCGETS, TCSETS, TCSETSW, TCSETSF, TIOCGWINSZ, TIOCSPGRP, TIOCGPGRP, TIOCSWINSZ, TCFLSH, TCXONC, TCSBRK,
  TIOCSBRK. -/
  | ioctl_tty : d.nr = 16 → arg d 1 ∈ [0x5401#32, 0x5402#32, 0x5403#32, 0x5404#32, 0x5413#32, 0x5410#32, 0x540F#32,
      0x5414#32, 0x540B#32, 0x540A#32, 0x5409#32, 0x5427#32] → ArgRule ids d .Tty
  /-- kill(pid): the pid of the pledging process. -/
  | kill_stdio : d.nr = 62 → arg d 0 = ids.pid → ArgRule ids d .StdIO
  /-- tkill(tid): the tid of the pledging thread. -/
  | tkill_stdio : d.nr = 200 → arg d 0 = ids.tid → ArgRule ids d .StdIO
  /-- prctl(option): PR_SET_NAME 15, PR_GET_NAME 16, PR_GET_SECCOMP 21, PR_SET_SECCOMP 22, PR_CAPBSET_READ 23,
  PR_CAPBSET_DROP 24, PR_SET_NO_NEW_PRIVS 38. -/
  | prctl_stdio : d.nr = 157 → arg d 0 ∈ [15#32, 16#32, 21#32, 22#32, 23#32, 24#32, 38#32] → ArgRule ids d .StdIO
  /-- clone(flags): CLONE_VM (8), FS (9), FILES (10), SIGHAND (11), THREAD (16) all set; none of PTRACE (13), NEWNS (17),
  UNTRACED (23). -/
  | clone_stdio : d.nr = 56 → hasAll (arg d 0) [8, 9, 10, 11, 16] → hasNone (arg d 0) [13, 17, 23] → ArgRule ids d .StdIO
  /-- clone(flags): none of PTRACE, NEWNS, UNTRACED. -/
  | clone_proc : d.nr = 56 → hasNone (arg d 0) [13, 17, 23] → ArgRule ids d .Proc
  /-- prlimit64(pid, resource, new_limit): the low half of the pointer is zero (documented: the pointer is NULL). -/
  | prlimit_stdio : d.nr = 302 → arg d 2 = 0 → ArgRule ids d .StdIO
  /-- open(path, flags, mode): the two lowest bits and O_CREAT (6), O_TRUNC (9), __O_TMPFILE (22) clear *in argument 2, the
  mode* (documented: in the flags, which are argument 1). -/
  | open_rpath : d.nr = 2 → (arg d 2).setWidth 2 = 0#2 → hasNone (arg d 2) [6, 9, 22] → ArgRule ids d .RPath
  /-- openat(dirfd, path, flags, mode): access mode O_RDONLY; no O_CREAT, O_TRUNC, __O_TMPFILE. -/
  | openat_read (p : Promise) : p ∈ [.RPath, .Dns] → d.nr = 257 → (arg d 2).setWidth 2 = 0#2 →
      hasNone (arg d 2) [6, 9, 22] → ArgRule ids d p
  /-- open: as documented for the flags, but checked *in argument 2, the mode*. -/
  | open_wpath : d.nr = 2 → (arg d 2).setWidth 2 ∈ [1#2, 2#2] → hasNone (arg d 2) [6, 22] → ArgRule ids d .WPath
  /-- openat: access mode O_WRONLY or O_RDWR; no O_CREAT, __O_TMPFILE. -/
  | openat_wpath : d.nr = 257 → (arg d 2).setWidth 2 ∈ [1#2, 2#2] → hasNone (arg d 2) [6, 22] → ArgRule ids d .WPath
  /-- open: *argument 2 (the mode)* has neither bit 6 nor 22, or *argument 3 (not used by open)* has no S_ISVTX (9), S_ISGID
  (10), S_ISUID (11). -/
  | open_cpath : d.nr = 2 → hasNone (arg d 2) [6, 22] ∨ hasNone (arg d 3) [9, 10, 11] → ArgRule ids d .CPath
  /-- openat: neither O_CREAT nor __O_TMPFILE, or a mode without S_ISVTX, S_ISGID, S_ISUID. -/
  | openat_cpath : d.nr = 257 → hasNone (arg d 2) [6, 22] ∨ hasNone (arg d 3) [9, 10, 11] → ArgRule ids d .CPath
  /-- creat(path, mode): no S_ISVTX, S_ISGID, S_ISUID. -/
  | creat_cpath : d.nr = 85 → hasNone (arg d 1) [9, 10, 11] → ArgRule ids d .CPath
  /-- chmod(path, mode), fchmod(fd, mode): no S_ISVTX, S_ISGID, S_ISUID. -/
  | chmod (p : Promise) : p ∈ [.WPath, .FAttr] → d.nr = 90 ∨ d.nr = 91 → hasNone (arg d 1) [9, 10, 11] → ArgRule ids d p
  /-- fchmodat(dirfd, path, mode): bits 9, 10, 11 clear *in argument 1, the path pointer* (documented: in the mode). -/
  | fchmodat (p : Promise) : p ∈ [.WPath, .FAttr] → d.nr = 268 → hasNone (arg d 1) [9, 10, 11] → ArgRule ids d p
  /-- socket(family, type, protocol): AF_INET, AF_INET6; SOCK_STREAM, SOCK_DGRAM; 0, ICMP, TCP, UDP. -/
  | socket_inet (p : Promise) : p ∈ [.Inet, .Dns] → d.nr = 41 → arg d 0 ∈ [2#32, 10#32] →
      isSockType (arg d 1) 1 ∨ isSockType (arg d 1) 2 → arg d 2 ∈ [0#32, 1#32, 6#32, 17#32] → ArgRule ids d p
  /-- socket: AF_UNIX; SOCK_STREAM, SOCK_DGRAM; 0. -/
  | socket_unix : d.nr = 41 → arg d 0 = 1 → isSockType (arg d 1) 1 ∨ isSockType (arg d 1) 2 → arg d 2 = 0 →
      ArgRule ids d .Unix
  /-- getsockopt(fd, level, optname): SOL_SOCKET, SOL_TCP; SO_REUSEADDR 2, SO_TYPE 3, SO_ERROR 4, SO_KEEPALIVE 9,
  SO_REUSEPORT 15, SO_RCVTIMEO 20, SO_SNDTIMEO 21. -/
  | getsockopt (p : Promise) : p ∈ [.Inet, .Unix] → d.nr = 55 → arg d 1 ∈ [1#32, 6#32] →
      arg d 2 ∈ [2#32, 3#32, 4#32, 9#32, 15#32, 20#32, 21#32] → ArgRule ids d p
  /-- *getsockopt* again (documented: setsockopt, 54): SOL_IP, SOL_SOCKET, SOL_TCP; the documented setsockopt options. -/
  | getsockopt_again (p : Promise) : p ∈ [.Inet, .Unix] → d.nr = 55 → arg d 1 ∈ [0#32, 1#32, 6#32] →
      arg d 2 ∈ [1#32, 2#32, 3#32, 4#32, 5#32, 9#32, 11#32, 12#32, 15#32, 20#32, 21#32, 23#32, 30#32] → ArgRule ids d p

/-- Promise `p` permits the call recorded in `d`. -/
def Permits (ids : Ids) (p : Promise) (d : SeccompData) : Prop := Free d.nr.toNat p ∨ ArgRule ids d p

/-- A list of promises permits a call when `Default` or one of the listed promises does. -/
def Allowed (ids : Ids) (ps : List Promise) (d : SeccompData) : Prop :=
  Permits ids .Default d ∨ ∃ p ∈ ps, Permits ids p d

/-- AUDIT_ARCH_X86_64. -/
def X86_64 : BitVec 32 := 0xC000003E

open Classical in
/-- The verdict the filter must give (32-bit seccomp return value): KILL_PROCESS on a foreign architecture, ALLOW on a
permitted call, otherwise the violation value `v`. -/
noncomputable def verdict (ids : Ids) (ps : List Promise) (v : BitVec 32) (d : SeccompData) : BitVec 32 :=
  if d.arch ≠ X86_64 then 0x80000000
  else if Allowed ids ps d then 0x7fff0000
  else v

end Spec
