import Verif.Libc
import Verif.Model.Basic

/-!
# src/promises.rs: promises, filter specifications and the promise table
-/
set_option autoImplicit false

namespace Pledge
open Libc

/-- src/promises.rs:22-46. -/
inductive Promise where
  | Default
  | StdIO
  | RPath
  | WPath
  | CPath
  | DPath
  | FLock
  | FAttr
  | Inet
  | Unix
  | Dns
  | Tty
  | RecvFd
  | SendFd
  | Proc
  | Id
  | Chown
  | SetTime
  | ProtExec
  | Exec
  | VmInfo
  | TmpPath
  | Unveil
  deriving DecidableEq, Repr

/-- What the process looks like to the filter generator: `std::process::id()` (src/seccomp.rs:203) and
`libc::gettid() as u32` (src/seccomp.rs:218). -/
structure Ids where
  pid : BitVec 32
  tid : BitVec 32
  deriving DecidableEq, Repr

/-- src/promises.rs:50-81. `Whitelist` carries a `libc::c_long`. -/
inductive Filtered where
  | Whitelist (syscall : BitVec 64)
  | FcntlStdio
  | MmapNoexec
  | MprotectNoexec
  | SendtoAddrless
  | IoctlRestrict
  | KillSelf
  | TkillSelf
  | PrctlStdio
  | CloneThread
  | Prlimit64Stdio
  | OpenReadonly
  | OpenatReadonly
  | OpenWriteonly
  | OpenatWriteonly
  | ChmodNobits
  | FchmodNobits
  | FchmodatNobits
  | OpenCreateonly
  | OpenatCreateonly
  | CreatRestrict
  | FcntlLock
  | SocketInet
  | IoctlInet
  | GetsockoptRestrict
  | SetsockoptRestrict
  | SocketUnix
  | IoctlTty
  | CloneRestrict
  | MmapExec
  deriving DecidableEq, Repr

/-- The `Default` entry of the table, src/promises.rs:86-90. -/
def filtersDefault : List Filtered := [
  .Whitelist SYS_exit]

/-- The `StdIO` entry of the table, src/promises.rs:92-208. -/
def filtersStdIO : List Filtered := [
  .Whitelist SYS_rt_sigreturn, .Whitelist SYS_restart_syscall, .Whitelist SYS_exit_group,
  .Whitelist SYS_sched_yield, .Whitelist SYS_sched_getaffinity, .Whitelist SYS_clock_getres,
  .Whitelist SYS_clock_gettime, .Whitelist SYS_clock_nanosleep, .Whitelist SYS_close_range,
  .Whitelist SYS_close, .Whitelist SYS_write, .Whitelist SYS_writev, .Whitelist SYS_pwrite64,
  .Whitelist SYS_pwritev, .Whitelist SYS_pwritev2, .Whitelist SYS_read, .Whitelist SYS_readv,
  .Whitelist SYS_pread64, .Whitelist SYS_preadv, .Whitelist SYS_preadv2, .Whitelist SYS_dup,
  .Whitelist SYS_dup2, .Whitelist SYS_dup3, .Whitelist SYS_fchdir, .FcntlStdio, .Whitelist SYS_fstat,
  .Whitelist SYS_fsync, .Whitelist SYS_sysinfo, .Whitelist SYS_fdatasync, .Whitelist SYS_ftruncate,
  .Whitelist SYS_getrandom, .Whitelist SYS_getgroups, .Whitelist SYS_getpgid, .Whitelist SYS_getpgrp,
  .Whitelist SYS_getpid, .Whitelist SYS_gettid, .Whitelist SYS_getuid, .Whitelist SYS_getgid,
  .Whitelist SYS_getsid, .Whitelist SYS_getppid, .Whitelist SYS_geteuid, .Whitelist SYS_getegid,
  .Whitelist SYS_getrlimit, .Whitelist SYS_getresgid, .Whitelist SYS_getresuid, .Whitelist SYS_getitimer,
  .Whitelist SYS_setitimer, .Whitelist SYS_timerfd_create, .Whitelist SYS_timerfd_settime,
  .Whitelist SYS_timerfd_gettime, .Whitelist SYS_copy_file_range, .Whitelist SYS_gettimeofday,
  .Whitelist SYS_sendfile, .Whitelist SYS_vmsplice, .Whitelist SYS_splice, .Whitelist SYS_lseek,
  .Whitelist SYS_tee, .Whitelist SYS_brk, .Whitelist SYS_msync, .MmapNoexec, .Whitelist SYS_mremap,
  .Whitelist SYS_munmap, .Whitelist SYS_mincore, .Whitelist SYS_madvise, .Whitelist SYS_fadvise64,
  .MprotectNoexec, .Whitelist SYS_arch_prctl, .Whitelist SYS_migrate_pages, .Whitelist SYS_sync_file_range,
  .Whitelist SYS_set_tid_address, .Whitelist SYS_membarrier, .Whitelist SYS_nanosleep, .Whitelist SYS_pipe,
  .Whitelist SYS_pipe2, .Whitelist SYS_poll, .Whitelist SYS_ppoll, .Whitelist SYS_select,
  .Whitelist SYS_pselect6, .Whitelist SYS_epoll_create, .Whitelist SYS_epoll_create1,
  .Whitelist SYS_epoll_ctl, .Whitelist SYS_epoll_wait, .Whitelist SYS_epoll_pwait,
  .Whitelist SYS_epoll_pwait2, .Whitelist SYS_recvfrom, .SendtoAddrless, .IoctlRestrict, .Whitelist SYS_alarm,
  .Whitelist SYS_pause, .Whitelist SYS_shutdown, .Whitelist SYS_eventfd, .Whitelist SYS_eventfd2,
  .Whitelist SYS_signalfd, .Whitelist SYS_signalfd4, .Whitelist SYS_rt_sigaction, .Whitelist SYS_sigaltstack,
  .Whitelist SYS_rt_sigprocmask, .Whitelist SYS_rt_sigsuspend, .Whitelist SYS_rt_sigpending, .KillSelf,
  .TkillSelf, .Whitelist SYS_socketpair, .Whitelist SYS_getrusage, .Whitelist SYS_times, .Whitelist SYS_umask,
  .Whitelist SYS_wait4, .Whitelist SYS_uname, .PrctlStdio, .CloneThread, .Whitelist SYS_futex,
  .Whitelist SYS_set_robust_list, .Whitelist SYS_get_robust_list, .Prlimit64Stdio]

/-- The `RPath` entry of the table, src/promises.rs:210-229. -/
def filtersRPath : List Filtered := [
  .Whitelist SYS_chdir, .Whitelist SYS_getcwd, .OpenReadonly, .OpenatReadonly, .Whitelist SYS_stat,
  .Whitelist SYS_lstat, .Whitelist SYS_fstat, .Whitelist SYS_newfstatat, .Whitelist SYS_access,
  .Whitelist SYS_faccessat, .Whitelist SYS_faccessat2, .Whitelist SYS_readlink, .Whitelist SYS_readlinkat,
  .Whitelist SYS_statfs, .Whitelist SYS_fstatfs, .Whitelist SYS_getdents]

/-- The `WPath` entry of the table, src/promises.rs:231-249. -/
def filtersWPath : List Filtered := [
  .Whitelist SYS_getcwd, .OpenWriteonly, .OpenatWriteonly, .Whitelist SYS_stat, .Whitelist SYS_fstat,
  .Whitelist SYS_lstat, .Whitelist SYS_newfstatat, .Whitelist SYS_access, .Whitelist SYS_truncate,
  .Whitelist SYS_faccessat, .Whitelist SYS_faccessat2, .Whitelist SYS_readlinkat, .ChmodNobits, .FchmodNobits,
  .FchmodatNobits]

/-- The `CPath` entry of the table, src/promises.rs:251-269. -/
def filtersCPath : List Filtered := [
  .OpenCreateonly, .OpenatCreateonly, .CreatRestrict, .Whitelist SYS_rename, .Whitelist SYS_renameat,
  .Whitelist SYS_renameat2, .Whitelist SYS_link, .Whitelist SYS_linkat, .Whitelist SYS_symlink,
  .Whitelist SYS_symlinkat, .Whitelist SYS_rmdir, .Whitelist SYS_unlink, .Whitelist SYS_unlinkat,
  .Whitelist SYS_mkdir, .Whitelist SYS_mkdirat]

/-- The `DPath` entry of the table, src/promises.rs:271-276. -/
def filtersDPath : List Filtered := [
  .Whitelist SYS_mknod, .Whitelist SYS_mknodat]

/-- The `FLock` entry of the table, src/promises.rs:278-283. -/
def filtersFLock : List Filtered := [
  .Whitelist SYS_flock, .FcntlLock]

/-- The `FAttr` entry of the table, src/promises.rs:285-295. -/
def filtersFAttr : List Filtered := [
  .ChmodNobits, .FchmodNobits, .FchmodatNobits, .Whitelist SYS_utime, .Whitelist SYS_utimes,
  .Whitelist SYS_futimesat, .Whitelist SYS_utimensat]

/-- The `Inet` entry of the table, src/promises.rs:297-312. -/
def filtersInet : List Filtered := [
  .SocketInet, .Whitelist SYS_listen, .Whitelist SYS_bind, .Whitelist SYS_sendto, .Whitelist SYS_connect,
  .Whitelist SYS_accept, .Whitelist SYS_accept4, .IoctlInet, .GetsockoptRestrict, .SetsockoptRestrict,
  .Whitelist SYS_getpeername, .Whitelist SYS_getsockname]

/-- The `Unix` entry of the table, src/promises.rs:314-328. -/
def filtersUnix : List Filtered := [
  .SocketUnix, .Whitelist SYS_listen, .Whitelist SYS_bind, .Whitelist SYS_connect, .Whitelist SYS_sendto,
  .Whitelist SYS_accept, .Whitelist SYS_accept4, .GetsockoptRestrict, .SetsockoptRestrict,
  .Whitelist SYS_getpeername, .Whitelist SYS_getsockname]

/-- The `Dns` entry of the table, src/promises.rs:330-342. -/
def filtersDns : List Filtered := [
  .SocketInet, .Whitelist SYS_bind, .Whitelist SYS_sendto, .Whitelist SYS_connect, .Whitelist SYS_recvfrom,
  .Whitelist SYS_newfstatat, .OpenatReadonly, .Whitelist SYS_read, .Whitelist SYS_close]

/-- The `Tty` entry of the table, src/promises.rs:344-348. -/
def filtersTty : List Filtered := [
  .IoctlTty]

/-- The `RecvFd` entry of the table, src/promises.rs:350-355. -/
def filtersRecvFd : List Filtered := [
  .Whitelist SYS_recvmsg, .Whitelist SYS_recvmmsg]

/-- The `SendFd` entry of the table, src/promises.rs:357-362. -/
def filtersSendFd : List Filtered := [
  .Whitelist SYS_recvmsg, .Whitelist SYS_recvmmsg]

/-- The `Proc` entry of the table, src/promises.rs:364-389. -/
def filtersProc : List Filtered := [
  .Whitelist SYS_fork, .Whitelist SYS_vfork, .CloneRestrict, .Whitelist SYS_kill, .Whitelist SYS_setsid,
  .Whitelist SYS_setpgid, .Whitelist SYS_prlimit64, .Whitelist SYS_setrlimit, .Whitelist SYS_getpriority,
  .Whitelist SYS_setpriority, .Whitelist SYS_ioprio_get, .Whitelist SYS_ioprio_set,
  .Whitelist SYS_sched_getscheduler, .Whitelist SYS_sched_setscheduler, .Whitelist SYS_sched_get_priority_min,
  .Whitelist SYS_sched_get_priority_max, .Whitelist SYS_sched_getaffinity, .Whitelist SYS_sched_setaffinity,
  .Whitelist SYS_sched_getparam, .Whitelist SYS_sched_setparam, .Whitelist SYS_tkill, .Whitelist SYS_tgkill]

/-- The `Id` entry of the table, src/promises.rs:391-407. -/
def filtersId : List Filtered := [
  .Whitelist SYS_setuid, .Whitelist SYS_setreuid, .Whitelist SYS_setresuid, .Whitelist SYS_setgid,
  .Whitelist SYS_setregid, .Whitelist SYS_setresgid, .Whitelist SYS_setgroups, .Whitelist SYS_prlimit64,
  .Whitelist SYS_setrlimit, .Whitelist SYS_getpriority, .Whitelist SYS_setpriority, .Whitelist SYS_setfsuid,
  .Whitelist SYS_setfsgid]

/-- The `Chown` entry of the table, src/promises.rs:409-416. -/
def filtersChown : List Filtered := [
  .Whitelist SYS_chown, .Whitelist SYS_fchown, .Whitelist SYS_lchown, .Whitelist SYS_fchownat]

/-- The `SetTime` entry of the table, src/promises.rs:418-423. -/
def filtersSetTime : List Filtered := [
  .Whitelist SYS_settimeofday, .Whitelist SYS_clock_adjtime]

/-- The `ProtExec` entry of the table, src/promises.rs:425-430. -/
def filtersProtExec : List Filtered := [
  .MmapExec, .Whitelist SYS_mprotect]

/-- The `Exec` entry of the table, src/promises.rs:432-437. -/
def filtersExec : List Filtered := [
  .Whitelist SYS_execve, .Whitelist SYS_execveat]

/-- The `VmInfo` entry of the table, src/promises.rs:439-443. -/
def filtersVmInfo : List Filtered := [
  .Whitelist SYS_sched_yield]

/-- The `TmpPath` entry of the table, src/promises.rs:445-451. -/
def filtersTmpPath : List Filtered := [
  .Whitelist SYS_lstat, .Whitelist SYS_unlink, .Whitelist SYS_unlinkat]

/-- The `Unveil` entry of the table, src/promises.rs:453-459. -/
def filtersUnveil : List Filtered := [
  .Whitelist SYS_landlock_create_ruleset, .Whitelist SYS_landlock_add_rule,
  .Whitelist SYS_landlock_restrict_self]

/-- The array given to `HashMap::from`, src/promises.rs:84-460. -/
def PROMISES : List (Promise × List Filtered) := [
  (.Default, filtersDefault),
  (.StdIO, filtersStdIO),
  (.RPath, filtersRPath),
  (.WPath, filtersWPath),
  (.CPath, filtersCPath),
  (.DPath, filtersDPath),
  (.FLock, filtersFLock),
  (.FAttr, filtersFAttr),
  (.Inet, filtersInet),
  (.Unix, filtersUnix),
  (.Dns, filtersDns),
  (.Tty, filtersTty),
  (.RecvFd, filtersRecvFd),
  (.SendFd, filtersSendFd),
  (.Proc, filtersProc),
  (.Id, filtersId),
  (.Chown, filtersChown),
  (.SetTime, filtersSetTime),
  (.ProtExec, filtersProtExec),
  (.Exec, filtersExec),
  (.VmInfo, filtersVmInfo),
  (.TmpPath, filtersTmpPath),
  (.Unveil, filtersUnveil)]

/-- `HashMap::get` on the table built by `HashMap::from([..])`: the last entry for a key wins. -/
def lookupPromise (p : Promise) : Option (List Filtered) := PROMISES.reverse.lookup p

end Pledge
