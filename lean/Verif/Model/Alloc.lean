import Verif.Model.Ids

/-!
# src/seccomp.rs:943-1015 with the system calls of the memory allocator

Building a program allocates vectors and maps, and the program itself is freed when `pledge_override` returns (the vector `bpf_prog`,
line 988, is dropped at line 1015), after the new filter has come into force. For both the allocator may make system calls, which pass
the thread's filters. Which calls it makes, and when, is up to the allocator: everything here holds for any of them.
-/
set_option autoImplicit false

namespace Pledge
open Bpfvm Kernel

/-- What the allocator does about the answer to one of its system calls. Giving up: `handle_alloc_error`, or a crash because it took a
made-up answer for memory; both end the process. -/
inductive Reaction where
  | goesOn
  | givesUp
  deriving DecidableEq

/-- One system call of the memory allocator. Not code of /repo. -/
structure MemCall where
  d : SeccompData
  /-- its reaction if the kernel executes the call (which may fail) -/
  executed : Reaction
  /-- its reaction if a filter refuses the call -/
  refused : Reaction

/-- How a call of `pledge_override` ends, allocator included. -/
inductive Ending where
  /-- it returns, panics or dies in one of the library's own system calls -/
  | own (r : PledgeRes)
  /-- the thread dies in a system call of the allocator -/
  | died (o : Outcome)
  /-- the allocator gives up -/
  | aborted
  deriving DecidableEq

/-- The allocator makes these calls, one after the other; `none`: it has what it wants. -/
def manage (handler : Bool) (t : Thread) : List MemCall → Option Ending
  | [] => none
  | c :: cs =>
    let then_ (r : Reaction) : Option Ending :=
      match r with
      | .goesOn => manage handler t cs
      | .givesUp => some .aborted
    match enter t c.d with
    | .executed => then_ c.executed
    | .errno _ => then_ c.refused
    | .trap => if handler then then_ c.refused else some (.died .trap)
    | o => some (.died o)

/-- `fragsBy` (src/seccomp.rs:963-966) with the allocator's calls: `mem k` before the `k`-th fragment, and after the last one, for the
header, the footer and the whole program (969-976). -/
def fragsMem (b : Build) (handler : Bool) (t : Thread) (q : Nat → Query) (mem : Nat → List MemCall) :
    Nat → List Filtered → Except Ending (Res PledgeError (List (List SockFilter)))
  | k, [] =>
    match manage handler t (mem k) with
    | some e => .error e
    | none => .ok (.ok [])
  | k, f :: fs =>
    match manage handler t (mem k) with
    | some e => .error e
    | none =>
    match (fragBy b handler t (q k) f).2 with
    | .error o => .error (.own (.died o))
    | .ok (.err e) => .ok (.err e)
    | .ok .panic => .ok .panic
    | .ok (.ok code) =>
      match fragsMem b handler t q mem (k + 1) fs with
      | .ok (.ok codes) => .ok (.ok (code :: codes))
      | r => r

/-- The end of `pledge_override` with result `r`, src/seccomp.rs:1015: the program is freed, unless the thread is dead. Freeing may make
system calls, under the filters the thread has by now. -/
def leave (handler : Bool) (drop : List MemCall) (t : Thread) (r : PledgeRes) : Thread × Ending :=
  match r with
  | .died o => (t, .own (.died o))
  | r =>
    match manage handler t drop with
    | some e => (t, e)
    | none => (t, .own r)

/-- `pledge_override`, src/seccomp.rs:985-1015, with all system calls: those of the library (`pledgeCalls`), those of the allocator while
the program is made (`mem`; the lookups of the promises come before fragment 0) and while it is freed (`drop`). -/
def pledgeMem (b : Build) (env : Env) (q : Nat → Query) (mem : Nat → List MemCall) (drop : List MemCall) (t : Thread)
    (promises : List Promise) (violation : SeccompReturn) : Thread × Ending :=
  match Res.mapM getFilters ([.Default] ++ promises) with
  | .err e => leave env.handler drop t (.err e)
  | .panic => leave env.handler drop t .panic
  | .ok filters =>
  match fragsMem b env.handler t q mem 0 filters.flatten with
  | .error e => (t, e)
  | .ok (.err e) => leave env.handler drop t (.err e)
  | .ok .panic => leave env.handler drop t .panic
  | .ok (.ok whitelist) =>
  match bpfHeader b with
  | .err e => leave env.handler drop t (.err e)
  | .panic => leave env.handler drop t .panic
  | .ok header =>
  match bpfFooter b violation with
  | .err e => leave env.handler drop t (.err e)
  | .panic => leave env.handler drop t .panic
  | .ok footer =>
    let prog := ([header] ++ whitelist ++ [footer]).flatten
    let seen := prog.take (prog.length % 2 ^ 16)
    let r1 := syscall (env.onTrap env.trapRet.1) t (recNnp env) (setNnp env.nnpFault)
    match checkRet env.errno.1 r1.2 with
    | some e => leave env.handler drop r1.1 e
    | none =>
      let r2 := syscall (env.onTrap env.trapRet.2) r1.1 (recSeccomp env) (setSeccomp env.seccompFault seen)
      match checkRet env.errno.2 r2.2 with
      | some e => leave env.handler drop r2.1 e
      | none => leave env.handler drop r2.1 .ok

end Pledge
