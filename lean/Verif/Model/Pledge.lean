import Verif.Env.Kernel
import Verif.Model.Filters

/-!
# src/seccomp.rs:981-1015: pledge and pledge_override on top of the kernel environment

and the histories of a multi-threaded program that uses them.
-/
set_option autoImplicit false

namespace Pledge
open Bpfvm Kernel

/-- Everything about one call of `pledge_override` that the library does not control. -/
structure Env where
  /-- failure of the first prctl for a reason outside the model -/
  nnpFault : Option Fault
  /-- failure of the second prctl for a reason outside the model -/
  seccompFault : Option Fault
  /-- the program has a handler for SIGSYS -/
  handler : Bool
  /-- what that handler leaves as result (a signed 64-bit register) of the first and second prctl call if the call is trapped -/
  trapRet : Int × Int
  /-- the value of `errno` when the first and second prctl call come back, if they do not set it -/
  errno : Nat × Nat
  /-- what `getpid` and `gettid` seem to return if a filter keeps them from being executed -/
  idFail : Ids
  /-- instruction pointers of getpid, gettid, prctl, prctl -/
  ip : Fin 4 → BitVec 64
  /-- address of the `sock_fprog` -/
  ptr : BitVec 64
  /-- argument registers of the four calls that the library does not set -/
  junk : Fin 4 → Fin 6 → BitVec 64
  /-- upper halves of the argument registers of the two prctl calls that carry 32-bit numbers -/
  upper : Fin 2 → Fin 5 → BitVec 32

/-- The program's SIGSYS handler as `Kernel.syscall` wants it. -/
def Env.onTrap (env : Env) (ret : Int) : Option Int := if env.handler then some ret else none

/-- The record of `getpid()`, made by `process::id()` at src/seccomp.rs:203: system call 39 on x86-64. -/
def recGetpid (env : Env) : SeccompData :=
  { nr := 39, arch := 0xC000003E, instructionPointer := env.ip 0, args := env.junk 0 }

/-- The record of `gettid()`, src/seccomp.rs:218: system call 186 on x86-64. -/
def recGettid (env : Env) : SeccompData :=
  { nr := 186, arch := 0xC000003E, instructionPointer := env.ip 1, args := env.junk 1 }

/-- The record the kernel makes of `prctl(PR_SET_NO_NEW_PRIVS, 1, 0, 0, 0)`, src/seccomp.rs:998: prctl is system call 157 on
x86-64, PR_SET_NO_NEW_PRIVS is 38. The sixth argument register is not set by the wrapper. The arguments are 32-bit numbers (of a
variadic function), so the calling convention leaves the upper halves of their registers open. The kernel refuses the call if one of the
last four arguments has a non-zero upper half: one of the failures `nnpFault`. -/
def recNnp (env : Env) : SeccompData :=
  { nr := 157, arch := 0xC000003E, instructionPointer := env.ip 2
    args := fun i => [env.upper 0 0 ++ 38#32, env.upper 0 1 ++ 1#32, env.upper 0 2 ++ 0#32, env.upper 0 3 ++ 0#32, env.upper 0 4 ++ 0#32,
      env.junk 2 5][i] }

/-- The record of `prctl(PR_SET_SECCOMP, SECCOMP_MODE_FILTER, bpf_prog_ptr)`, src/seccomp.rs:1003-1007: PR_SET_SECCOMP is 22,
SECCOMP_MODE_FILTER is 2. As above for the upper halves. -/
def recSeccomp (env : Env) : SeccompData :=
  { nr := 157, arch := 0xC000003E, instructionPointer := env.ip 3
    args := fun i => [env.upper 1 0 ++ 22#32, env.upper 1 1 ++ 2#32, env.ptr, env.junk 3 3, env.junk 3 4, env.junk 3 5][i] }

/-- How a call of `pledge_override` ends. -/
inductive PledgeRes where
  | ok
  | err (e : PledgeError)
  | panic
  | died (o : Outcome)
  deriving DecidableEq

/-- `if ret != 0 { return Err(SysErr(last_os_error())) }`, src/seccomp.rs:999-1001 and 1009-1011. The prctl wrapper of the C
library turns a raw result in `-4095..-1` into `-1` with `errno` set. Otherwise it leaves `errno` alone (`stale`) and returns the
result as an `int`, that is, its low 32 bits. -/
def checkRet (stale : Nat) (r : CallRes) : Option PledgeRes :=
  match r with
  | .dead o => some (.died o)
  | .ret v =>
    if v < 0 ∧ v.natAbs ≤ 4095 then some (.err (.SysErr v.natAbs))
    else if v % 2 ^ 32 = 0 then none
    else some (.err (.SysErr stale))

/-- The filter generator asks for the pid and tid: `kill_self` and `tkill_self` (src/seccomp.rs:199-228) are called when a
promise's filter list has `KillSelf` / `TkillSelf`. -/
def asksIds (promises : List Promise) : Bool :=
  ([Promise.Default] ++ promises).any fun p =>
    match lookupPromise p with
    | some fs => fs.contains .KillSelf || fs.contains .TkillSelf
    | none => false

/-- The value of getpid() or gettid() as the caller sees it: these are system calls too, so earlier filters apply to them. -/
def askId (env : Env) (t : Thread) (d : SeccompData) (real fail : BitVec 32) : Except Outcome (BitVec 32) :=
  match enter t d with
  | .executed => .ok real
  | .errno _ => .ok fail
  | .trap => if env.handler then .ok fail else .error .trap
  | o => .error o

/-- The ids the generator works with. Simplifications: one call of each kind however often `StdIO` is repeated; if nothing asks
for the ids, the real ones are passed (they are not used then). `Model/Ids.lean` has every call; C78 justifies this. -/
def askIds (env : Env) (t : Thread) (promises : List Promise) : Except Outcome Ids :=
  if asksIds promises then
    match askId env t (recGetpid env) t.pid env.idFail.pid with
    | .error o => .error o
    | .ok pid =>
      match askId env t (recGettid env) t.tid env.idFail.tid with
      | .error o => .error o
      | .ok tid => .ok ⟨pid, tid⟩
  else .ok ⟨t.pid, t.tid⟩

/-- `pledge_override`, src/seccomp.rs:985-1015, called by thread `t`. `prog_ref.len() as u16` truncates (line 993); the kernel
reads that many instructions from `filter`. -/
def pledgeOverride (b : Build) (env : Env) (t : Thread) (promises : List Promise) (violation : SeccompReturn) :
    Thread × PledgeRes :=
  match askIds env t promises with
  | .error o => (t, .died o)
  | .ok ids =>
  match promisesToProg b ids promises violation with
  | .err e => (t, .err e)
  | .panic => (t, .panic)
  | .ok prog =>
    let seen := prog.take (prog.length % 2 ^ 16)
    let r1 := syscall (env.onTrap env.trapRet.1) t (recNnp env) (setNnp env.nnpFault)
    match checkRet env.errno.1 r1.2 with
    | some e => (r1.1, e)
    | none =>
      let r2 := syscall (env.onTrap env.trapRet.2) r1.1 (recSeccomp env) (setSeccomp env.seccompFault seen)
      match checkRet env.errno.2 r2.2 with
      | some e => (r2.1, e)
      | none => (r2.1, .ok)

/-- `pledge`, src/seccomp.rs:981-983. -/
def pledge (b : Build) (env : Env) (t : Thread) (promises : List Promise) : Thread × PledgeRes :=
  pledgeOverride b env t promises .KillProcess

/-! ## Histories

Not in /repo: the programs that use the library. A system is a list of threads (dead ones stay in the list). -/

abbrev System := List Thread

/-- What a program does next. Threads are named by their position in the system. `h` stands for the program's SIGSYS handler,
see `Kernel.syscall`. -/
inductive Op where
  /-- thread `i` calls `pledge_override` -/
  | pledge (i : Nat) (b : Build) (env : Env) (ps : List Promise) (v : SeccompReturn)
  /-- thread `i` makes the thread- or process-creating system call `d`; if it is executed the child has these ids. -/
  | spawn (i : Nat) (d : SeccompData) (h : Option Int) (pid tid : BitVec 32)
  /-- thread `i` makes a system call that has no effect on what is modelled here. -/
  | call (i : Nat) (d : SeccompData) (h : Option Int)
  /-- thread `i` sets no_new_privs itself, without the library. -/
  | setNnp (i : Nat) (d : SeccompData) (h : Option Int) (fault : Option Fault)
  /-- thread `i` installs a filter program of its own, without the library. -/
  | setSeccomp (i : Nat) (d : SeccompData) (h : Option Int) (fault : Option Fault) (p : Prog)
  /-- thread `i` gains or loses CAP_SYS_ADMIN. -/
  | cred (i : Nat) (admin : Bool)
  /-- something outside the model (a signal, a crash, an exit) ends thread `i`, or (`whole`) its process. -/
  | crash (i : Nat) (whole : Bool)

/-- Thread `i` of process `pid` dies with outcome `o`. -/
def reap (s : System) (i : Nat) (pid : BitVec 32) (o : Outcome) : System :=
  match o with
  | .killThread => s.modify i fun t => { t with alive := false }
  | _ => s.map fun t => if t.pid = pid then { t with alive := false } else t

/-- Thread `i`, if it exists and lives, does `f`, which yields its new state and possibly its death. -/
def System.on (s : System) (i : Nat) (f : Thread → Thread × Option Outcome) : System :=
  match s[i]? with
  | some t =>
    if t.alive then
      match (f t).2 with
      | some o => reap (s.set i (f t).1) i t.pid o
      | none => s.set i (f t).1
    else s
  | none => s

/-- The death, if any, in the result of a system call. -/
def deathOf : CallRes → Option Outcome
  | .dead o => some o
  | .ret _ => none

/-- The death, if any, in the result of `pledge_override`. -/
def PledgeRes.death : PledgeRes → Option Outcome
  | .died o => some o
  | _ => none

/-- One step of the system. Steps of dead or missing threads do nothing. -/
def System.step (s : System) (op : Op) : System :=
  match op with
  | .pledge i b env ps v => s.on i fun t => ((pledgeOverride b env t ps v).1, (pledgeOverride b env t ps v).2.death)
  | .spawn i d h pid tid =>
    match s[i]? with
    | some t =>
      if t.alive ∧ enter t d = .executed then s ++ [{ t with pid := pid, tid := tid }]
      else s.on i fun t => (t, deathOf (syscall h t d fun t => (t, 0)).2)
    | none => s
  | .call i d h => s.on i fun t => (t, deathOf (syscall h t d fun t => (t, 0)).2)
  | .setNnp i d h fault =>
    s.on i fun t => ((syscall h t d (Kernel.setNnp fault)).1, deathOf (syscall h t d (Kernel.setNnp fault)).2)
  | .setSeccomp i d h fault p =>
    s.on i fun t => ((syscall h t d (Kernel.setSeccomp fault p)).1, deathOf (syscall h t d (Kernel.setSeccomp fault p)).2)
  | .cred i admin => s.on i fun t => ({ t with admin := admin }, none)
  | .crash i whole => s.on i fun t => (t, some (if whole then .killProcess else .killThread))

/-- A history. -/
def System.run (s : System) (ops : List Op) : System := ops.foldl System.step s

end Pledge
