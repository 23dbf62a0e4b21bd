import Verif.Model.Asm
import Verif.Model.Seccomp
import Verif.Model.Promises

/-!
# src/seccomp.rs (lines 30-979): filter fragments and program generation

`libc::X as u32` is written `X`; `Some("L")` / `None` / `SeccompReturn::Allow.into()` are kept as they are.
-/
set_option autoImplicit false

namespace Pledge
open Libc Bpfvm Bpfvm.Operation Bpfvm.JmpOp Bpfvm.AluOp Bpfvm.Mode Bpfvm.Src Bpfvm.FieldOffset

/-- src/seccomp.rs:32. -/
def __O_TMPFILE : BitVec 32 := 0o20000000#32

/-- First arm of `syscall_check!`, src/seccomp.rs:42-47. `$syscall as u32` truncates a `c_long`. -/
def syscallCheck1 (syscall : BitVec 64) : List Operation := [
  Jump JEQ (syscall.setWidth 32) none (some "NEXT_FILTER"),
  Return Const SeccompReturn.Allow.toU32,
  Label "NEXT_FILTER"]

/-- Second arm of `syscall_check!`, src/seccomp.rs:48-56. -/
def syscallCheck (syscall : BitVec 64) (els : List Operation) : List Operation :=
  Jump JEQ (syscall.setWidth 32) none (some "NEXT_FILTER") ::
  els ++ [
  Return Const SeccompReturn.Allow.toU32,
  Label "NEXT_FILTER",
  Load ABS Syscall.offset]

/-- Source of `bpf_header`, src/seccomp.rs:62-68. -/
def headerAsm : List Operation := [
  Load ABS Arch.offset,
  Jump JEQ AUDIT_ARCH_X86_64 (some "START") none,
  Return Const SeccompReturn.KillProcess.toU32,
  Label "START",
  Load ABS Syscall.offset]

/-- Source of `bpf_footer`, src/seccomp.rs:74-75. -/
def footerAsm (violation : SeccompReturn) : List Operation := [Return Const violation.toU32]

/-- Source of `whitelist_syscall`, src/seccomp.rs:80. -/
def whitelistAsm (syscall : BitVec 64) : List Operation := syscallCheck1 syscall

/-- `fcntl_stdio`, src/seccomp.rs:93-103. -/
def fcntlStdioAsm : List Operation :=
  syscallCheck SYS_fcntl [
    Load ABS (ArgLower 1).offset,
    Jump JEQ F_DUPFD_CLOEXEC (some "Allow") none,
    Jump JGT 4 (some "NEXT_FILTER") none,
    Label "Allow",
    Return Const SeccompReturn.Allow.toU32]

/-- `mmap_noexec`, src/seccomp.rs:118-133. -/
def mmapNoexecAsm : List Operation :=
  let fmask : BitVec 32 := MAP_LOCKED ||| MAP_POPULATE ||| MAP_NONBLOCK ||| MAP_HUGETLB
  syscallCheck SYS_mmap [
    Load ABS (ArgLower 2).offset,
    Jump JGT 2 (some "NEXT_FILTER") none,
    Load ABS (ArgLower 3).offset,
    Alu AND Const fmask,
    Jump JEQ 0 none (some "NEXT_FILTER"),
    Return Const SeccompReturn.Allow.toU32]

/-- `mprotect_noexec`, src/seccomp.rs:141-153. -/
def mprotectNoexecAsm : List Operation :=
  let mask : BitVec 32 := ~~~(PROT_READ ||| PROT_WRITE ||| PROT_NONE)
  syscallCheck SYS_mprotect [
    Load ABS (ArgLower 2).offset,
    Alu AND Const mask,
    Jump JEQ 0 none (some "NEXT_FILTER"),
    Return Const SeccompReturn.Allow.toU32]

/-- `sendto_addrless`, src/seccomp.rs:159-171. -/
def sendtoAddrlessAsm : List Operation :=
  syscallCheck SYS_sendto [
    Load ABS (ArgLower 4).offset,
    Jump JEQ 0 none (some "NEXT_FILTER"),
    Load ABS (ArgUpper 4).offset,
    Jump JEQ 0 none (some "NEXT_FILTER"),
    Return Const SeccompReturn.Allow.toU32]

/-- `ioctl_restrict`, src/seccomp.rs:180-193. -/
def ioctlRestrictAsm : List Operation :=
  syscallCheck SYS_ioctl [
    Load ABS (ArgLower 1).offset,
    Jump JEQ FIONREAD (some "Allow") none,
    Jump JEQ FIONBIO (some "Allow") none,
    Jump JEQ FIOCLEX (some "Allow") none,
    Jump JEQ FIONCLEX (some "Allow") none,
    JumpTo "NEXT_FILTER",
    Label "Allow",
    Return Const SeccompReturn.Allow.toU32]

/-- `kill_self`, src/seccomp.rs:199-209. -/
def killSelfAsm (ids : Ids) : List Operation :=
  syscallCheck SYS_kill [
    Load ABS (ArgLower 0).offset,
    Jump JEQ ids.pid (some "Allow") none,
    JumpTo "NEXT_FILTER",
    Label "Allow",
    Return Const SeccompReturn.Allow.toU32]

/-- `tkill_self`, src/seccomp.rs:215-228. -/
def tkillSelfAsm (ids : Ids) : List Operation :=
  syscallCheck SYS_tkill [
    Load ABS (ArgLower 0).offset,
    Jump JEQ ids.tid (some "Allow") none,
    JumpTo "NEXT_FILTER",
    Label "Allow",
    Return Const SeccompReturn.Allow.toU32]

/-- `prctl_stdio`, src/seccomp.rs:240-256. -/
def prctlStdioAsm : List Operation :=
  syscallCheck SYS_prctl [
    Load ABS (ArgLower 0).offset,
    Jump JEQ PR_SET_NAME (some "Allow") none,
    Jump JEQ PR_GET_NAME (some "Allow") none,
    Jump JEQ PR_GET_SECCOMP (some "Allow") none,
    Jump JEQ PR_SET_SECCOMP (some "Allow") none,
    Jump JEQ PR_SET_NO_NEW_PRIVS (some "Allow") none,
    Jump JEQ PR_CAPBSET_READ (some "Allow") none,
    Jump JEQ PR_CAPBSET_DROP (some "Allow") none,
    JumpTo "NEXT_FILTER",
    Label "Allow",
    Return Const SeccompReturn.Allow.toU32]

/-- `clone_thread`, src/seccomp.rs:273-290. -/
def cloneThreadAsm : List Operation :=
  let ok_mask : BitVec 32 := CLONE_VM ||| CLONE_FS ||| CLONE_FILES ||| CLONE_THREAD ||| CLONE_SIGHAND
  let no_mask : BitVec 32 := CLONE_NEWNS ||| CLONE_PTRACE ||| CLONE_UNTRACED
  syscallCheck SYS_clone [
    Load ABS (ArgLower 0).offset,
    Alu AND Const ok_mask,
    Jump JEQ ok_mask none (some "NEXT_FILTER"),
    Load ABS (ArgLower 0).offset,
    Alu AND Const no_mask,
    Jump JEQ 0 none (some "NEXT_FILTER"),
    Label "Allow",
    Return Const SeccompReturn.Allow.toU32]

/-- `prlimit64_stdio`, src/seccomp.rs:297-305. -/
def prlimit64StdioAsm : List Operation :=
  syscallCheck SYS_prlimit64 [
    Load ABS (ArgLower 2).offset,
    Jump JEQ 0 none (some "NEXT_FILTER"),
    Return Const SeccompReturn.Allow.toU32]

/-- `open_readonly`, src/seccomp.rs:317-333. -/
def openReadonlyAsm : List Operation :=
  let mask : BitVec 32 := O_CREAT ||| O_TRUNC ||| __O_TMPFILE
  syscallCheck SYS_open [
    Load ABS (ArgLower 2).offset,
    Alu AND Const O_ACCMODE,
    Jump JEQ O_RDONLY none (some "NEXT_FILTER"),
    Load ABS (ArgLower 2).offset,
    Alu AND Const mask,
    Jump JEQ 0 none (some "NEXT_FILTER"),
    Return Const SeccompReturn.Allow.toU32]

/-- `openat_readonly`, src/seccomp.rs:346-362. -/
def openatReadonlyAsm : List Operation :=
  let mask : BitVec 32 := O_CREAT ||| O_TRUNC ||| __O_TMPFILE
  syscallCheck SYS_openat [
    Load ABS (ArgLower 2).offset,
    Alu AND Const O_ACCMODE,
    Jump JEQ O_RDONLY none (some "NEXT_FILTER"),
    Load ABS (ArgLower 2).offset,
    Alu AND Const mask,
    Jump JEQ 0 none (some "NEXT_FILTER"),
    Return Const SeccompReturn.Allow.toU32]

/-- `open_writeonly`, src/seccomp.rs:375-393. -/
def openWriteonlyAsm : List Operation :=
  let mask : BitVec 32 := O_CREAT ||| __O_TMPFILE
  syscallCheck SYS_open [
    Load ABS (ArgLower 2).offset,
    Alu AND Const O_ACCMODE,
    Jump JEQ O_WRONLY (some "FLAG_CHECK") none,
    Jump JEQ O_RDWR none (some "NEXT_FILTER"),
    Label "FLAG_CHECK",
    Load ABS (ArgLower 2).offset,
    Alu AND Const mask,
    Jump JEQ 0 none (some "NEXT_FILTER"),
    Return Const SeccompReturn.Allow.toU32]

/-- `openat_writeonly`, src/seccomp.rs:406-424. -/
def openatWriteonlyAsm : List Operation :=
  let mask : BitVec 32 := O_CREAT ||| __O_TMPFILE
  syscallCheck SYS_openat [
    Load ABS (ArgLower 2).offset,
    Alu AND Const O_ACCMODE,
    Jump JEQ O_WRONLY (some "FLAG_CHECK") none,
    Jump JEQ O_RDWR none (some "NEXT_FILTER"),
    Label "FLAG_CHECK",
    Load ABS (ArgLower 2).offset,
    Alu AND Const mask,
    Jump JEQ 0 none (some "NEXT_FILTER"),
    Return Const SeccompReturn.Allow.toU32]

/-- `chmod_nobits`, src/seccomp.rs:432-442. -/
def chmodNobitsAsm : List Operation :=
  let mmask : BitVec 32 := S_ISVTX ||| S_ISGID ||| S_ISUID
  syscallCheck SYS_chmod [
    Load ABS (ArgLower 1).offset,
    Alu AND Const mmask,
    Jump JEQ 0 none (some "NEXT_FILTER"),
    Return Const SeccompReturn.Allow.toU32]

/-- `fchmod_nobits`, src/seccomp.rs:450-460. -/
def fchmodNobitsAsm : List Operation :=
  let mmask : BitVec 32 := S_ISVTX ||| S_ISGID ||| S_ISUID
  syscallCheck SYS_fchmod [
    Load ABS (ArgLower 1).offset,
    Alu AND Const mmask,
    Jump JEQ 0 none (some "NEXT_FILTER"),
    Return Const SeccompReturn.Allow.toU32]

/-- `fchmodat_nobits`, src/seccomp.rs:468-478. -/
def fchmodatNobitsAsm : List Operation :=
  let mmask : BitVec 32 := S_ISVTX ||| S_ISGID ||| S_ISUID
  syscallCheck SYS_fchmodat [
    Load ABS (ArgLower 1).offset,
    Alu AND Const mmask,
    Jump JEQ 0 none (some "NEXT_FILTER"),
    Return Const SeccompReturn.Allow.toU32]

/-- `open_createonly`, src/seccomp.rs:491-511. -/
def openCreateonlyAsm : List Operation :=
  let mmask : BitVec 32 := S_ISVTX ||| S_ISGID ||| S_ISUID
  syscallCheck SYS_open [
    Load ABS (ArgLower 2).offset,
    Alu AND Const O_CREAT,
    Jump JEQ O_CREAT (some "FLAG_CHECK") none,
    Load ABS (ArgLower 2).offset,
    Alu AND Const __O_TMPFILE,
    Jump JEQ __O_TMPFILE (some "FLAG_CHECK") (some "ALLOW"),
    Label "FLAG_CHECK",
    Load ABS (ArgLower 3).offset,
    Alu AND Const mmask,
    Jump JEQ 0 (some "ALLOW") (some "NEXT_FILTER"),
    Label "ALLOW",
    Return Const SeccompReturn.Allow.toU32]

/-- `openat_createonly`, src/seccomp.rs:525-545. -/
def openatCreateonlyAsm : List Operation :=
  let mmask : BitVec 32 := S_ISVTX ||| S_ISGID ||| S_ISUID
  syscallCheck SYS_openat [
    Load ABS (ArgLower 2).offset,
    Alu AND Const O_CREAT,
    Jump JEQ O_CREAT (some "FLAG_CHECK") none,
    Load ABS (ArgLower 2).offset,
    Alu AND Const __O_TMPFILE,
    Jump JEQ __O_TMPFILE (some "FLAG_CHECK") (some "ALLOW"),
    Label "FLAG_CHECK",
    Load ABS (ArgLower 3).offset,
    Alu AND Const mmask,
    Jump JEQ 0 (some "ALLOW") (some "NEXT_FILTER"),
    Label "ALLOW",
    Return Const SeccompReturn.Allow.toU32]

/-- `create_restrict`, src/seccomp.rs:553-563. -/
def createRestrictAsm : List Operation :=
  let mmask : BitVec 32 := S_ISVTX ||| S_ISGID ||| S_ISUID
  syscallCheck SYS_creat [
    Load ABS (ArgLower 1).offset,
    Alu AND Const mmask,
    Jump JEQ 0 none (some "NEXT_FILTER"),
    Return Const SeccompReturn.Allow.toU32]

/-- `fcntl_lock`, src/seccomp.rs:572-584. -/
def fcntlLockAsm : List Operation :=
  syscallCheck SYS_fcntl [
    Load ABS (ArgLower 1).offset,
    Jump JEQ F_GETLK (some "Allow") none,
    Jump JEQ F_SETLK (some "Allow") none,
    Jump JEQ F_SETLKW (some "Allow") none,
    JumpTo "NEXT_FILTER",
    Label "Allow",
    Return Const SeccompReturn.Allow.toU32]

/-- `socket_inet`, src/seccomp.rs:609-636. -/
def socketInetAsm : List Operation :=
  syscallCheck SYS_socket [
    Load ABS (ArgLower 0).offset,
    Jump JEQ AF_INET (some "Type_Check") none,
    Jump JEQ AF_INET6 (some "Type_Check") (some "NEXT_FILTER"),
    Label "Type_Check",
    Load ABS (ArgLower 1).offset,
    Alu AND Const (~~~0x80800#32),
    Jump JEQ SOCK_STREAM (some "Proto_Check") none,
    Jump JEQ SOCK_DGRAM (some "Proto_Check") (some "NEXT_FILTER"),
    Label "Proto_Check",
    Load ABS (ArgLower 2).offset,
    Jump JEQ 0 (some "Allow") none,
    Jump JEQ IPPROTO_ICMP (some "Allow") none,
    Jump JEQ IPPROTO_TCP (some "Allow") none,
    Jump JEQ IPPROTO_UDP (some "Allow") none,
    JumpTo "NEXT_FILTER",
    Label "Allow",
    Return Const SeccompReturn.Allow.toU32]

/-- `ioctl_inet`, src/seccomp.rs:642-653. -/
def ioctlInetAsm : List Operation :=
  let SIOCATMARK : BitVec 32 := 0x8905
  syscallCheck SYS_ioctl [
    Load ABS (ArgLower 1).offset,
    Jump JEQ SIOCATMARK (some "Allow") none,
    JumpTo "NEXT_FILTER",
    Label "Allow",
    Return Const SeccompReturn.Allow.toU32]

/-- `getsockopt_restrict`, src/seccomp.rs:671-695. -/
def getsockoptRestrictAsm : List Operation :=
  syscallCheck SYS_getsockopt [
    Load ABS (ArgLower 1).offset,
    Jump JEQ SOL_SOCKET (some "Opt_Check") none,
    Jump JEQ SOL_TCP (some "Opt_Check") (some "NEXT_FILTER"),
    Label "Opt_Check",
    Load ABS (ArgLower 2).offset,
    Jump JEQ SO_TYPE (some "Allow") none,
    Jump JEQ SO_ERROR (some "Allow") none,
    Jump JEQ SO_REUSEPORT (some "Allow") none,
    Jump JEQ SO_REUSEADDR (some "Allow") none,
    Jump JEQ SO_KEEPALIVE (some "Allow") none,
    Jump JEQ SO_RCVTIMEO (some "Allow") none,
    Jump JEQ SO_SNDTIMEO (some "Allow") none,
    JumpTo "NEXT_FILTER",
    Label "Allow",
    Return Const SeccompReturn.Allow.toU32]

/-- `setsockopt_restrict`, src/seccomp.rs:723-757. -/
def setsockoptRestrictAsm : List Operation :=
  syscallCheck SYS_getsockopt [
    Load ABS (ArgLower 1).offset,
    Jump JEQ SOL_IP (some "Opt_Check") none,
    Jump JEQ SOL_SOCKET (some "Opt_Check") none,
    Jump JEQ SOL_TCP (some "Opt_Check") (some "NEXT_FILTER"),
    Label "Opt_Check",
    Load ABS (ArgLower 2).offset,
    Jump JEQ TCP_NODELAY (some "Allow") none,
    Jump JEQ TCP_CORK (some "Allow") none,
    Jump JEQ TCP_KEEPIDLE (some "Allow") none,
    Jump JEQ TCP_KEEPINTVL (some "Allow") none,
    Jump JEQ SO_TYPE (some "Allow") none,
    Jump JEQ SO_ERROR (some "Allow") none,
    Jump JEQ SO_DONTROUTE (some "Allow") none,
    Jump JEQ SO_REUSEPORT (some "Allow") none,
    Jump JEQ SO_REUSEADDR (some "Allow") none,
    Jump JEQ SO_KEEPALIVE (some "Allow") none,
    Jump JEQ SO_RCVTIMEO (some "Allow") none,
    Jump JEQ SO_SNDTIMEO (some "Allow") none,
    Jump JEQ IP_RECVTTL (some "Allow") none,
    Jump JEQ IP_RECVERR (some "Allow") none,
    Jump JEQ TCP_FASTOPEN (some "Allow") none,
    Jump JEQ TCP_FASTOPEN_CONNECT (some "Allow") none,
    JumpTo "NEXT_FILTER",
    Label "Allow",
    Return Const SeccompReturn.Allow.toU32]

/-- `socket_unix`, src/seccomp.rs:779-803. -/
def socketUnixAsm : List Operation :=
  syscallCheck SYS_socket [
    Load ABS (ArgLower 0).offset,
    Jump JEQ AF_UNIX (some "Type_Check") none,
    Jump JEQ AF_LOCAL (some "Type_Check") (some "NEXT_FILTER"),
    Label "Type_Check",
    Load ABS (ArgLower 1).offset,
    Alu AND Const (~~~0x80800#32),
    Jump JEQ SOCK_STREAM (some "Proto_Check") none,
    Jump JEQ SOCK_DGRAM (some "Proto_Check") (some "NEXT_FILTER"),
    Label "Proto_Check",
    Load ABS (ArgLower 2).offset,
    Jump JEQ 0 (some "Allow") none,
    JumpTo "NEXT_FILTER",
    Label "Allow",
    Return Const SeccompReturn.Allow.toU32]

/-- `ioctl_tty`, src/seccomp.rs:843-864. -/
def ioctlTtyAsm : List Operation :=
  syscallCheck SYS_ioctl [
    Load ABS (ArgLower 1).offset,
    Jump JEQ TCGETS (some "Allow") none,
    Jump JEQ TCSETS (some "Allow") none,
    Jump JEQ TCSETSW (some "Allow") none,
    Jump JEQ TCSETSF (some "Allow") none,
    Jump JEQ TIOCGWINSZ (some "Allow") none,
    Jump JEQ TIOCSPGRP (some "Allow") none,
    Jump JEQ TIOCGPGRP (some "Allow") none,
    Jump JEQ TIOCSWINSZ (some "Allow") none,
    Jump JEQ TCFLSH (some "Allow") none,
    Jump JEQ TCXONC (some "Allow") none,
    Jump JEQ TCSBRK (some "Allow") none,
    Jump JEQ TIOCSBRK (some "Allow") none,
    JumpTo "NEXT_FILTER",
    Label "Allow",
    Return Const SeccompReturn.Allow.toU32]

/-- `clone_restrict`, src/seccomp.rs:873-885. -/
def cloneRestrictAsm : List Operation :=
  let no_mask : BitVec 32 := CLONE_NEWNS ||| CLONE_PTRACE ||| CLONE_UNTRACED
  syscallCheck SYS_clone [
    Load ABS (ArgLower 0).offset,
    Alu AND Const no_mask,
    Jump JEQ 0 none (some "NEXT_FILTER"),
    Label "Allow",
    Return Const SeccompReturn.Allow.toU32]

/-- `mmap_exec`, src/seccomp.rs:893-905. -/
def mmapExecAsm : List Operation :=
  let mask : BitVec 32 := MAP_LOCKED ||| MAP_NONBLOCK ||| MAP_HUGETLB
  syscallCheck SYS_mmap [
    Load ABS (ArgLower 3).offset,
    Alu AND Const mask,
    Jump JEQ 0 none (some "NEXT_FILTER"),
    Return Const SeccompReturn.Allow.toU32]

/-- `filter_to_bpf` (src/seccomp.rs:908-941) up to the final `compile`: each of the thirty functions builds an array and
compiles it; here the array. -/
def filterAsm (ids : Ids) : Filtered → List Operation
  | .Whitelist syscall => whitelistAsm syscall
  | .FcntlStdio => fcntlStdioAsm
  | .MmapNoexec => mmapNoexecAsm
  | .MprotectNoexec => mprotectNoexecAsm
  | .SendtoAddrless => sendtoAddrlessAsm
  | .IoctlRestrict => ioctlRestrictAsm
  | .KillSelf => killSelfAsm ids
  | .TkillSelf => tkillSelfAsm ids
  | .PrctlStdio => prctlStdioAsm
  | .CloneThread => cloneThreadAsm
  | .Prlimit64Stdio => prlimit64StdioAsm
  | .OpenReadonly => openReadonlyAsm
  | .OpenatReadonly => openatReadonlyAsm
  | .OpenWriteonly => openWriteonlyAsm
  | .OpenatWriteonly => openatWriteonlyAsm
  | .ChmodNobits => chmodNobitsAsm
  | .FchmodNobits => fchmodNobitsAsm
  | .FchmodatNobits => fchmodatNobitsAsm
  | .OpenCreateonly => openCreateonlyAsm
  | .OpenatCreateonly => openatCreateonlyAsm
  | .CreatRestrict => createRestrictAsm
  | .FcntlLock => fcntlLockAsm
  | .SocketInet => socketInetAsm
  | .IoctlInet => ioctlInetAsm
  | .GetsockoptRestrict => getsockoptRestrictAsm
  | .SetsockoptRestrict => setsockoptRestrictAsm
  | .SocketUnix => socketUnixAsm
  | .IoctlTty => ioctlTtyAsm
  | .CloneRestrict => cloneRestrictAsm
  | .MmapExec => mmapExecAsm

/-- src/errors.rs:24-31. `SysErr` carries the errno of `std::io::Error::last_os_error()`. -/
inductive PledgeError where
  | UndefinedPromise (p : Promise)
  | SysErr (errno : Nat)
  | BPFErr (e : Bpfvm.Error)
  deriving DecidableEq, Repr

/-- `Ok(compile(&asm)?)`, the last line of every fragment function (e.g. src/seccomp.rs:70): the `From` conversion at
src/errors.rs:29-30. -/
def compileFrag (b : Build) (asm : List Operation) : Res PledgeError (List SockFilter) :=
  (compile b asm).mapErr .BPFErr

/-- `bpf_header`, src/seccomp.rs:60-71. -/
def bpfHeader (b : Build) : Res PledgeError (List SockFilter) := compileFrag b headerAsm

/-- `bpf_footer`, src/seccomp.rs:73-77. -/
def bpfFooter (b : Build) (violation : SeccompReturn) : Res PledgeError (List SockFilter) :=
  compileFrag b (footerAsm violation)

/-- `filter_to_bpf`, src/seccomp.rs:908-941. -/
def filterToBpf (b : Build) (ids : Ids) (f : Filtered) : Res PledgeError (List SockFilter) :=
  compileFrag b (filterAsm ids f)

/-- `filters_to_prog`, src/seccomp.rs:961-979. -/
def filtersToProg (b : Build) (ids : Ids) (filters : List Filtered) (violation : SeccompReturn) :
    Res PledgeError (List SockFilter) :=
  (Res.mapM (filterToBpf b ids) filters).bind fun whitelist =>
  (bpfHeader b).bind fun header =>
  (bpfFooter b violation).bind fun footer =>
  .ok (([header] ++ whitelist ++ [footer]).flatten)

/-- `PROMISES.get(&p).ok_or(Error::UndefinedPromise(p))`, src/seccomp.rs:950. -/
def getFilters (p : Promise) : Res PledgeError (List Filtered) :=
  match lookupPromise p with
  | some fs => .ok fs
  | none => .err (.UndefinedPromise p)

/-- `promises_to_prog`, src/seccomp.rs:943-957. -/
def promisesToProg (b : Build) (ids : Ids) (promises : List Promise) (violation : SeccompReturn) :
    Res PledgeError (List SockFilter) :=
  (Res.mapM getFilters ([.Default] ++ promises)).bind fun filters =>
  filtersToProg b ids filters.flatten violation

end Pledge
