/-!
# Constants of the `libc` crate (target x86_64-unknown-linux-gnu)

`/repo` refers to these by name (`libc::SYS_read`, `libc::BPF_LD`, ...) and gets the values from the `libc` crate, which is not
part of `/repo`. The values below are those of the Linux x86-64 ABI, taken from the kernel/glibc headers of this machine
(`asm/unistd_64.h`, `linux/filter.h`, `linux/prctl.h`, `fcntl.h`, `sys/mman.h`, ...). They belong to the trusted base.

* `BPF_*` are `u32` in the crate: `BitVec 32`.
* `SYS_*` are `c_long` (`i64`): `BitVec 64`.
* the remaining constants are `c_int`/`c_ulong`/`mode_t`, and every use in `/repo` casts them `as u32`. Their values are
  non-negative and below 2^31, so they are kept as `BitVec 32` directly.
-/
set_option autoImplicit false

namespace Libc

/-! ## classic BPF encoding (used throughout bpfvm/src/bpf.rs and bpfvm/src/vm.rs) -/

def BPF_LD : BitVec 32 := 0x00#32
def BPF_LDX : BitVec 32 := 0x01#32
def BPF_ST : BitVec 32 := 0x02#32
def BPF_STX : BitVec 32 := 0x03#32
def BPF_ALU : BitVec 32 := 0x04#32
def BPF_JMP : BitVec 32 := 0x05#32
def BPF_RET : BitVec 32 := 0x06#32
def BPF_MISC : BitVec 32 := 0x07#32
def BPF_W : BitVec 32 := 0x00#32
def BPF_H : BitVec 32 := 0x08#32
def BPF_B : BitVec 32 := 0x10#32
def BPF_IMM : BitVec 32 := 0x00#32
def BPF_ABS : BitVec 32 := 0x20#32
def BPF_IND : BitVec 32 := 0x40#32
def BPF_MEM : BitVec 32 := 0x60#32
def BPF_LEN : BitVec 32 := 0x80#32
def BPF_ADD : BitVec 32 := 0x00#32
def BPF_SUB : BitVec 32 := 0x10#32
def BPF_MUL : BitVec 32 := 0x20#32
def BPF_DIV : BitVec 32 := 0x30#32
def BPF_OR : BitVec 32 := 0x40#32
def BPF_AND : BitVec 32 := 0x50#32
def BPF_LSH : BitVec 32 := 0x60#32
def BPF_RSH : BitVec 32 := 0x70#32
def BPF_NEG : BitVec 32 := 0x80#32
def BPF_MOD : BitVec 32 := 0x90#32
def BPF_XOR : BitVec 32 := 0xa0#32
def BPF_JA : BitVec 32 := 0x00#32
def BPF_JEQ : BitVec 32 := 0x10#32
def BPF_JGT : BitVec 32 := 0x20#32
def BPF_JGE : BitVec 32 := 0x30#32
def BPF_JSET : BitVec 32 := 0x40#32
def BPF_K : BitVec 32 := 0x00#32
def BPF_X : BitVec 32 := 0x08#32

/-- `libc::BPF_MEMWORDS`, used at bpfvm/src/vm.rs:24. -/
def BPF_MEMWORDS : Nat := 16

/-! ## flags, options and request codes used by src/seccomp.rs -/

def O_CREAT : BitVec 32 := 0x40#32
def O_TRUNC : BitVec 32 := 0x200#32
def O_ACCMODE : BitVec 32 := 0x3#32
def O_RDONLY : BitVec 32 := 0x0#32
def O_WRONLY : BitVec 32 := 0x1#32
def O_RDWR : BitVec 32 := 0x2#32
def O_CLOEXEC : BitVec 32 := 0x80000#32
def S_ISVTX : BitVec 32 := 0x200#32
def S_ISGID : BitVec 32 := 0x400#32
def S_ISUID : BitVec 32 := 0x800#32
def F_DUPFD_CLOEXEC : BitVec 32 := 0x406#32
def F_GETLK : BitVec 32 := 0x5#32
def F_SETLK : BitVec 32 := 0x6#32
def F_SETLKW : BitVec 32 := 0x7#32
def MAP_LOCKED : BitVec 32 := 0x2000#32
def MAP_POPULATE : BitVec 32 := 0x8000#32
def MAP_NONBLOCK : BitVec 32 := 0x10000#32
def MAP_HUGETLB : BitVec 32 := 0x40000#32
def PROT_NONE : BitVec 32 := 0x0#32
def PROT_READ : BitVec 32 := 0x1#32
def PROT_WRITE : BitVec 32 := 0x2#32
def FIONREAD : BitVec 32 := 0x541b#32
def FIONBIO : BitVec 32 := 0x5421#32
def FIOCLEX : BitVec 32 := 0x5451#32
def FIONCLEX : BitVec 32 := 0x5450#32
def PR_SET_NAME : BitVec 32 := 0xf#32
def PR_GET_NAME : BitVec 32 := 0x10#32
def PR_GET_SECCOMP : BitVec 32 := 0x15#32
def PR_SET_SECCOMP : BitVec 32 := 0x16#32
def PR_SET_NO_NEW_PRIVS : BitVec 32 := 0x26#32
def PR_CAPBSET_READ : BitVec 32 := 0x17#32
def PR_CAPBSET_DROP : BitVec 32 := 0x18#32
def CLONE_VM : BitVec 32 := 0x100#32
def CLONE_FS : BitVec 32 := 0x200#32
def CLONE_FILES : BitVec 32 := 0x400#32
def CLONE_THREAD : BitVec 32 := 0x10000#32
def CLONE_SIGHAND : BitVec 32 := 0x800#32
def CLONE_NEWNS : BitVec 32 := 0x20000#32
def CLONE_PTRACE : BitVec 32 := 0x2000#32
def CLONE_UNTRACED : BitVec 32 := 0x800000#32
def AF_INET : BitVec 32 := 0x2#32
def AF_INET6 : BitVec 32 := 0xa#32
def AF_UNIX : BitVec 32 := 0x1#32
def AF_LOCAL : BitVec 32 := 0x1#32
def SOCK_STREAM : BitVec 32 := 0x1#32
def SOCK_DGRAM : BitVec 32 := 0x2#32
def SOCK_CLOEXEC : BitVec 32 := 0x80000#32
def SOCK_NONBLOCK : BitVec 32 := 0x800#32
def IPPROTO_ICMP : BitVec 32 := 0x1#32
def IPPROTO_TCP : BitVec 32 := 0x6#32
def IPPROTO_UDP : BitVec 32 := 0x11#32
def SOL_IP : BitVec 32 := 0x0#32
def SOL_SOCKET : BitVec 32 := 0x1#32
def SOL_TCP : BitVec 32 := 0x6#32
def SO_TYPE : BitVec 32 := 0x3#32
def SO_ERROR : BitVec 32 := 0x4#32
def SO_DONTROUTE : BitVec 32 := 0x5#32
def SO_REUSEPORT : BitVec 32 := 0xf#32
def SO_REUSEADDR : BitVec 32 := 0x2#32
def SO_KEEPALIVE : BitVec 32 := 0x9#32
def SO_RCVTIMEO : BitVec 32 := 0x14#32
def SO_SNDTIMEO : BitVec 32 := 0x15#32
def TCP_NODELAY : BitVec 32 := 0x1#32
def TCP_CORK : BitVec 32 := 0x3#32
def TCP_KEEPIDLE : BitVec 32 := 0x4#32
def TCP_KEEPINTVL : BitVec 32 := 0x5#32
def TCP_FASTOPEN : BitVec 32 := 0x17#32
def TCP_FASTOPEN_CONNECT : BitVec 32 := 0x1e#32
def IP_RECVTTL : BitVec 32 := 0xc#32
def IP_RECVERR : BitVec 32 := 0xb#32
def TCGETS : BitVec 32 := 0x5401#32
def TCSETS : BitVec 32 := 0x5402#32
def TCSETSW : BitVec 32 := 0x5403#32
def TCSETSF : BitVec 32 := 0x5404#32
def TIOCGWINSZ : BitVec 32 := 0x5413#32
def TIOCSPGRP : BitVec 32 := 0x5410#32
def TIOCGPGRP : BitVec 32 := 0x540f#32
def TIOCSWINSZ : BitVec 32 := 0x5414#32
def TCFLSH : BitVec 32 := 0x540b#32
def TCXONC : BitVec 32 := 0x540a#32
def TCSBRK : BitVec 32 := 0x5409#32
def TIOCSBRK : BitVec 32 := 0x5427#32
def SECCOMP_MODE_FILTER : BitVec 32 := 0x2#32

/-! ## x86-64 system call numbers (`libc::SYS_*`, `c_long`) -/

def SYS_read : BitVec 64 := 0#64
def SYS_write : BitVec 64 := 1#64
def SYS_open : BitVec 64 := 2#64
def SYS_close : BitVec 64 := 3#64
def SYS_stat : BitVec 64 := 4#64
def SYS_fstat : BitVec 64 := 5#64
def SYS_lstat : BitVec 64 := 6#64
def SYS_poll : BitVec 64 := 7#64
def SYS_lseek : BitVec 64 := 8#64
def SYS_mmap : BitVec 64 := 9#64
def SYS_mprotect : BitVec 64 := 10#64
def SYS_munmap : BitVec 64 := 11#64
def SYS_brk : BitVec 64 := 12#64
def SYS_rt_sigaction : BitVec 64 := 13#64
def SYS_rt_sigprocmask : BitVec 64 := 14#64
def SYS_rt_sigreturn : BitVec 64 := 15#64
def SYS_ioctl : BitVec 64 := 16#64
def SYS_pread64 : BitVec 64 := 17#64
def SYS_pwrite64 : BitVec 64 := 18#64
def SYS_readv : BitVec 64 := 19#64
def SYS_writev : BitVec 64 := 20#64
def SYS_access : BitVec 64 := 21#64
def SYS_pipe : BitVec 64 := 22#64
def SYS_select : BitVec 64 := 23#64
def SYS_sched_yield : BitVec 64 := 24#64
def SYS_mremap : BitVec 64 := 25#64
def SYS_msync : BitVec 64 := 26#64
def SYS_mincore : BitVec 64 := 27#64
def SYS_madvise : BitVec 64 := 28#64
def SYS_shmget : BitVec 64 := 29#64
def SYS_shmat : BitVec 64 := 30#64
def SYS_shmctl : BitVec 64 := 31#64
def SYS_dup : BitVec 64 := 32#64
def SYS_dup2 : BitVec 64 := 33#64
def SYS_pause : BitVec 64 := 34#64
def SYS_nanosleep : BitVec 64 := 35#64
def SYS_getitimer : BitVec 64 := 36#64
def SYS_alarm : BitVec 64 := 37#64
def SYS_setitimer : BitVec 64 := 38#64
def SYS_getpid : BitVec 64 := 39#64
def SYS_sendfile : BitVec 64 := 40#64
def SYS_socket : BitVec 64 := 41#64
def SYS_connect : BitVec 64 := 42#64
def SYS_accept : BitVec 64 := 43#64
def SYS_sendto : BitVec 64 := 44#64
def SYS_recvfrom : BitVec 64 := 45#64
def SYS_sendmsg : BitVec 64 := 46#64
def SYS_recvmsg : BitVec 64 := 47#64
def SYS_shutdown : BitVec 64 := 48#64
def SYS_bind : BitVec 64 := 49#64
def SYS_listen : BitVec 64 := 50#64
def SYS_getsockname : BitVec 64 := 51#64
def SYS_getpeername : BitVec 64 := 52#64
def SYS_socketpair : BitVec 64 := 53#64
def SYS_setsockopt : BitVec 64 := 54#64
def SYS_getsockopt : BitVec 64 := 55#64
def SYS_clone : BitVec 64 := 56#64
def SYS_fork : BitVec 64 := 57#64
def SYS_vfork : BitVec 64 := 58#64
def SYS_execve : BitVec 64 := 59#64
def SYS_exit : BitVec 64 := 60#64
def SYS_wait4 : BitVec 64 := 61#64
def SYS_kill : BitVec 64 := 62#64
def SYS_uname : BitVec 64 := 63#64
def SYS_semget : BitVec 64 := 64#64
def SYS_semop : BitVec 64 := 65#64
def SYS_semctl : BitVec 64 := 66#64
def SYS_shmdt : BitVec 64 := 67#64
def SYS_msgget : BitVec 64 := 68#64
def SYS_msgsnd : BitVec 64 := 69#64
def SYS_msgrcv : BitVec 64 := 70#64
def SYS_msgctl : BitVec 64 := 71#64
def SYS_fcntl : BitVec 64 := 72#64
def SYS_flock : BitVec 64 := 73#64
def SYS_fsync : BitVec 64 := 74#64
def SYS_fdatasync : BitVec 64 := 75#64
def SYS_truncate : BitVec 64 := 76#64
def SYS_ftruncate : BitVec 64 := 77#64
def SYS_getdents : BitVec 64 := 78#64
def SYS_getcwd : BitVec 64 := 79#64
def SYS_chdir : BitVec 64 := 80#64
def SYS_fchdir : BitVec 64 := 81#64
def SYS_rename : BitVec 64 := 82#64
def SYS_mkdir : BitVec 64 := 83#64
def SYS_rmdir : BitVec 64 := 84#64
def SYS_creat : BitVec 64 := 85#64
def SYS_link : BitVec 64 := 86#64
def SYS_unlink : BitVec 64 := 87#64
def SYS_symlink : BitVec 64 := 88#64
def SYS_readlink : BitVec 64 := 89#64
def SYS_chmod : BitVec 64 := 90#64
def SYS_fchmod : BitVec 64 := 91#64
def SYS_chown : BitVec 64 := 92#64
def SYS_fchown : BitVec 64 := 93#64
def SYS_lchown : BitVec 64 := 94#64
def SYS_umask : BitVec 64 := 95#64
def SYS_gettimeofday : BitVec 64 := 96#64
def SYS_getrlimit : BitVec 64 := 97#64
def SYS_getrusage : BitVec 64 := 98#64
def SYS_sysinfo : BitVec 64 := 99#64
def SYS_times : BitVec 64 := 100#64
def SYS_ptrace : BitVec 64 := 101#64
def SYS_getuid : BitVec 64 := 102#64
def SYS_syslog : BitVec 64 := 103#64
def SYS_getgid : BitVec 64 := 104#64
def SYS_setuid : BitVec 64 := 105#64
def SYS_setgid : BitVec 64 := 106#64
def SYS_geteuid : BitVec 64 := 107#64
def SYS_getegid : BitVec 64 := 108#64
def SYS_setpgid : BitVec 64 := 109#64
def SYS_getppid : BitVec 64 := 110#64
def SYS_getpgrp : BitVec 64 := 111#64
def SYS_setsid : BitVec 64 := 112#64
def SYS_setreuid : BitVec 64 := 113#64
def SYS_setregid : BitVec 64 := 114#64
def SYS_getgroups : BitVec 64 := 115#64
def SYS_setgroups : BitVec 64 := 116#64
def SYS_setresuid : BitVec 64 := 117#64
def SYS_getresuid : BitVec 64 := 118#64
def SYS_setresgid : BitVec 64 := 119#64
def SYS_getresgid : BitVec 64 := 120#64
def SYS_getpgid : BitVec 64 := 121#64
def SYS_setfsuid : BitVec 64 := 122#64
def SYS_setfsgid : BitVec 64 := 123#64
def SYS_getsid : BitVec 64 := 124#64
def SYS_capget : BitVec 64 := 125#64
def SYS_capset : BitVec 64 := 126#64
def SYS_rt_sigpending : BitVec 64 := 127#64
def SYS_rt_sigtimedwait : BitVec 64 := 128#64
def SYS_rt_sigqueueinfo : BitVec 64 := 129#64
def SYS_rt_sigsuspend : BitVec 64 := 130#64
def SYS_sigaltstack : BitVec 64 := 131#64
def SYS_utime : BitVec 64 := 132#64
def SYS_mknod : BitVec 64 := 133#64
def SYS_uselib : BitVec 64 := 134#64
def SYS_personality : BitVec 64 := 135#64
def SYS_ustat : BitVec 64 := 136#64
def SYS_statfs : BitVec 64 := 137#64
def SYS_fstatfs : BitVec 64 := 138#64
def SYS_sysfs : BitVec 64 := 139#64
def SYS_getpriority : BitVec 64 := 140#64
def SYS_setpriority : BitVec 64 := 141#64
def SYS_sched_setparam : BitVec 64 := 142#64
def SYS_sched_getparam : BitVec 64 := 143#64
def SYS_sched_setscheduler : BitVec 64 := 144#64
def SYS_sched_getscheduler : BitVec 64 := 145#64
def SYS_sched_get_priority_max : BitVec 64 := 146#64
def SYS_sched_get_priority_min : BitVec 64 := 147#64
def SYS_sched_rr_get_interval : BitVec 64 := 148#64
def SYS_mlock : BitVec 64 := 149#64
def SYS_munlock : BitVec 64 := 150#64
def SYS_mlockall : BitVec 64 := 151#64
def SYS_munlockall : BitVec 64 := 152#64
def SYS_vhangup : BitVec 64 := 153#64
def SYS_modify_ldt : BitVec 64 := 154#64
def SYS_pivot_root : BitVec 64 := 155#64
def SYS__sysctl : BitVec 64 := 156#64
def SYS_prctl : BitVec 64 := 157#64
def SYS_arch_prctl : BitVec 64 := 158#64
def SYS_adjtimex : BitVec 64 := 159#64
def SYS_setrlimit : BitVec 64 := 160#64
def SYS_chroot : BitVec 64 := 161#64
def SYS_sync : BitVec 64 := 162#64
def SYS_acct : BitVec 64 := 163#64
def SYS_settimeofday : BitVec 64 := 164#64
def SYS_mount : BitVec 64 := 165#64
def SYS_umount2 : BitVec 64 := 166#64
def SYS_swapon : BitVec 64 := 167#64
def SYS_swapoff : BitVec 64 := 168#64
def SYS_reboot : BitVec 64 := 169#64
def SYS_sethostname : BitVec 64 := 170#64
def SYS_setdomainname : BitVec 64 := 171#64
def SYS_iopl : BitVec 64 := 172#64
def SYS_ioperm : BitVec 64 := 173#64
def SYS_create_module : BitVec 64 := 174#64
def SYS_init_module : BitVec 64 := 175#64
def SYS_delete_module : BitVec 64 := 176#64
def SYS_get_kernel_syms : BitVec 64 := 177#64
def SYS_query_module : BitVec 64 := 178#64
def SYS_quotactl : BitVec 64 := 179#64
def SYS_nfsservctl : BitVec 64 := 180#64
def SYS_getpmsg : BitVec 64 := 181#64
def SYS_putpmsg : BitVec 64 := 182#64
def SYS_afs_syscall : BitVec 64 := 183#64
def SYS_tuxcall : BitVec 64 := 184#64
def SYS_security : BitVec 64 := 185#64
def SYS_gettid : BitVec 64 := 186#64
def SYS_readahead : BitVec 64 := 187#64
def SYS_setxattr : BitVec 64 := 188#64
def SYS_lsetxattr : BitVec 64 := 189#64
def SYS_fsetxattr : BitVec 64 := 190#64
def SYS_getxattr : BitVec 64 := 191#64
def SYS_lgetxattr : BitVec 64 := 192#64
def SYS_fgetxattr : BitVec 64 := 193#64
def SYS_listxattr : BitVec 64 := 194#64
def SYS_llistxattr : BitVec 64 := 195#64
def SYS_flistxattr : BitVec 64 := 196#64
def SYS_removexattr : BitVec 64 := 197#64
def SYS_lremovexattr : BitVec 64 := 198#64
def SYS_fremovexattr : BitVec 64 := 199#64
def SYS_tkill : BitVec 64 := 200#64
def SYS_time : BitVec 64 := 201#64
def SYS_futex : BitVec 64 := 202#64
def SYS_sched_setaffinity : BitVec 64 := 203#64
def SYS_sched_getaffinity : BitVec 64 := 204#64
def SYS_set_thread_area : BitVec 64 := 205#64
def SYS_io_setup : BitVec 64 := 206#64
def SYS_io_destroy : BitVec 64 := 207#64
def SYS_io_getevents : BitVec 64 := 208#64
def SYS_io_submit : BitVec 64 := 209#64
def SYS_io_cancel : BitVec 64 := 210#64
def SYS_get_thread_area : BitVec 64 := 211#64
def SYS_lookup_dcookie : BitVec 64 := 212#64
def SYS_epoll_create : BitVec 64 := 213#64
def SYS_epoll_ctl_old : BitVec 64 := 214#64
def SYS_epoll_wait_old : BitVec 64 := 215#64
def SYS_remap_file_pages : BitVec 64 := 216#64
def SYS_getdents64 : BitVec 64 := 217#64
def SYS_set_tid_address : BitVec 64 := 218#64
def SYS_restart_syscall : BitVec 64 := 219#64
def SYS_semtimedop : BitVec 64 := 220#64
def SYS_fadvise64 : BitVec 64 := 221#64
def SYS_timer_create : BitVec 64 := 222#64
def SYS_timer_settime : BitVec 64 := 223#64
def SYS_timer_gettime : BitVec 64 := 224#64
def SYS_timer_getoverrun : BitVec 64 := 225#64
def SYS_timer_delete : BitVec 64 := 226#64
def SYS_clock_settime : BitVec 64 := 227#64
def SYS_clock_gettime : BitVec 64 := 228#64
def SYS_clock_getres : BitVec 64 := 229#64
def SYS_clock_nanosleep : BitVec 64 := 230#64
def SYS_exit_group : BitVec 64 := 231#64
def SYS_epoll_wait : BitVec 64 := 232#64
def SYS_epoll_ctl : BitVec 64 := 233#64
def SYS_tgkill : BitVec 64 := 234#64
def SYS_utimes : BitVec 64 := 235#64
def SYS_vserver : BitVec 64 := 236#64
def SYS_mbind : BitVec 64 := 237#64
def SYS_set_mempolicy : BitVec 64 := 238#64
def SYS_get_mempolicy : BitVec 64 := 239#64
def SYS_mq_open : BitVec 64 := 240#64
def SYS_mq_unlink : BitVec 64 := 241#64
def SYS_mq_timedsend : BitVec 64 := 242#64
def SYS_mq_timedreceive : BitVec 64 := 243#64
def SYS_mq_notify : BitVec 64 := 244#64
def SYS_mq_getsetattr : BitVec 64 := 245#64
def SYS_kexec_load : BitVec 64 := 246#64
def SYS_waitid : BitVec 64 := 247#64
def SYS_add_key : BitVec 64 := 248#64
def SYS_request_key : BitVec 64 := 249#64
def SYS_keyctl : BitVec 64 := 250#64
def SYS_ioprio_set : BitVec 64 := 251#64
def SYS_ioprio_get : BitVec 64 := 252#64
def SYS_inotify_init : BitVec 64 := 253#64
def SYS_inotify_add_watch : BitVec 64 := 254#64
def SYS_inotify_rm_watch : BitVec 64 := 255#64
def SYS_migrate_pages : BitVec 64 := 256#64
def SYS_openat : BitVec 64 := 257#64
def SYS_mkdirat : BitVec 64 := 258#64
def SYS_mknodat : BitVec 64 := 259#64
def SYS_fchownat : BitVec 64 := 260#64
def SYS_futimesat : BitVec 64 := 261#64
def SYS_newfstatat : BitVec 64 := 262#64
def SYS_unlinkat : BitVec 64 := 263#64
def SYS_renameat : BitVec 64 := 264#64
def SYS_linkat : BitVec 64 := 265#64
def SYS_symlinkat : BitVec 64 := 266#64
def SYS_readlinkat : BitVec 64 := 267#64
def SYS_fchmodat : BitVec 64 := 268#64
def SYS_faccessat : BitVec 64 := 269#64
def SYS_pselect6 : BitVec 64 := 270#64
def SYS_ppoll : BitVec 64 := 271#64
def SYS_unshare : BitVec 64 := 272#64
def SYS_set_robust_list : BitVec 64 := 273#64
def SYS_get_robust_list : BitVec 64 := 274#64
def SYS_splice : BitVec 64 := 275#64
def SYS_tee : BitVec 64 := 276#64
def SYS_sync_file_range : BitVec 64 := 277#64
def SYS_vmsplice : BitVec 64 := 278#64
def SYS_move_pages : BitVec 64 := 279#64
def SYS_utimensat : BitVec 64 := 280#64
def SYS_epoll_pwait : BitVec 64 := 281#64
def SYS_signalfd : BitVec 64 := 282#64
def SYS_timerfd_create : BitVec 64 := 283#64
def SYS_eventfd : BitVec 64 := 284#64
def SYS_fallocate : BitVec 64 := 285#64
def SYS_timerfd_settime : BitVec 64 := 286#64
def SYS_timerfd_gettime : BitVec 64 := 287#64
def SYS_accept4 : BitVec 64 := 288#64
def SYS_signalfd4 : BitVec 64 := 289#64
def SYS_eventfd2 : BitVec 64 := 290#64
def SYS_epoll_create1 : BitVec 64 := 291#64
def SYS_dup3 : BitVec 64 := 292#64
def SYS_pipe2 : BitVec 64 := 293#64
def SYS_inotify_init1 : BitVec 64 := 294#64
def SYS_preadv : BitVec 64 := 295#64
def SYS_pwritev : BitVec 64 := 296#64
def SYS_rt_tgsigqueueinfo : BitVec 64 := 297#64
def SYS_perf_event_open : BitVec 64 := 298#64
def SYS_recvmmsg : BitVec 64 := 299#64
def SYS_fanotify_init : BitVec 64 := 300#64
def SYS_fanotify_mark : BitVec 64 := 301#64
def SYS_prlimit64 : BitVec 64 := 302#64
def SYS_name_to_handle_at : BitVec 64 := 303#64
def SYS_open_by_handle_at : BitVec 64 := 304#64
def SYS_clock_adjtime : BitVec 64 := 305#64
def SYS_syncfs : BitVec 64 := 306#64
def SYS_sendmmsg : BitVec 64 := 307#64
def SYS_setns : BitVec 64 := 308#64
def SYS_getcpu : BitVec 64 := 309#64
def SYS_process_vm_readv : BitVec 64 := 310#64
def SYS_process_vm_writev : BitVec 64 := 311#64
def SYS_kcmp : BitVec 64 := 312#64
def SYS_finit_module : BitVec 64 := 313#64
def SYS_sched_setattr : BitVec 64 := 314#64
def SYS_sched_getattr : BitVec 64 := 315#64
def SYS_renameat2 : BitVec 64 := 316#64
def SYS_seccomp : BitVec 64 := 317#64
def SYS_getrandom : BitVec 64 := 318#64
def SYS_memfd_create : BitVec 64 := 319#64
def SYS_kexec_file_load : BitVec 64 := 320#64
def SYS_bpf : BitVec 64 := 321#64
def SYS_execveat : BitVec 64 := 322#64
def SYS_userfaultfd : BitVec 64 := 323#64
def SYS_membarrier : BitVec 64 := 324#64
def SYS_mlock2 : BitVec 64 := 325#64
def SYS_copy_file_range : BitVec 64 := 326#64
def SYS_preadv2 : BitVec 64 := 327#64
def SYS_pwritev2 : BitVec 64 := 328#64
def SYS_pkey_mprotect : BitVec 64 := 329#64
def SYS_pkey_alloc : BitVec 64 := 330#64
def SYS_pkey_free : BitVec 64 := 331#64
def SYS_statx : BitVec 64 := 332#64
def SYS_io_pgetevents : BitVec 64 := 333#64
def SYS_rseq : BitVec 64 := 334#64
def SYS_pidfd_send_signal : BitVec 64 := 424#64
def SYS_io_uring_setup : BitVec 64 := 425#64
def SYS_io_uring_enter : BitVec 64 := 426#64
def SYS_io_uring_register : BitVec 64 := 427#64
def SYS_open_tree : BitVec 64 := 428#64
def SYS_move_mount : BitVec 64 := 429#64
def SYS_fsopen : BitVec 64 := 430#64
def SYS_fsconfig : BitVec 64 := 431#64
def SYS_fsmount : BitVec 64 := 432#64
def SYS_fspick : BitVec 64 := 433#64
def SYS_pidfd_open : BitVec 64 := 434#64
def SYS_clone3 : BitVec 64 := 435#64
def SYS_close_range : BitVec 64 := 436#64
def SYS_openat2 : BitVec 64 := 437#64
def SYS_pidfd_getfd : BitVec 64 := 438#64
def SYS_faccessat2 : BitVec 64 := 439#64
def SYS_process_madvise : BitVec 64 := 440#64
def SYS_epoll_pwait2 : BitVec 64 := 441#64
def SYS_mount_setattr : BitVec 64 := 442#64
def SYS_quotactl_fd : BitVec 64 := 443#64
def SYS_landlock_create_ruleset : BitVec 64 := 444#64
def SYS_landlock_add_rule : BitVec 64 := 445#64
def SYS_landlock_restrict_self : BitVec 64 := 446#64
def SYS_memfd_secret : BitVec 64 := 447#64
def SYS_process_mrelease : BitVec 64 := 448#64
def SYS_futex_waitv : BitVec 64 := 449#64
def SYS_set_mempolicy_home_node : BitVec 64 := 450#64
def SYS_cachestat : BitVec 64 := 451#64
def SYS_fchmodat2 : BitVec 64 := 452#64
def SYS_map_shadow_stack : BitVec 64 := 453#64
def SYS_futex_wake : BitVec 64 := 454#64
def SYS_futex_wait : BitVec 64 := 455#64
def SYS_futex_requeue : BitVec 64 := 456#64
def SYS_statmount : BitVec 64 := 457#64
def SYS_listmount : BitVec 64 := 458#64
def SYS_lsm_get_self_attr : BitVec 64 := 459#64
def SYS_lsm_set_self_attr : BitVec 64 := 460#64
def SYS_lsm_list_modules : BitVec 64 := 461#64

end Libc
