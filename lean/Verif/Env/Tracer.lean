import Verif.Env.Kernel

/-!
# A tracer

`Env/Kernel.lean` has no tracer: a call that the filters want traced fails with ENOSYS. Here is `__seccomp_filter` of Linux (since 4.8,
kernel/seccomp.c) for a thread whose tracer has set PTRACE_O_TRACESECCOMP. The tracer is told the low sixteen bits of the verdict. It may
change the call, or make the kernel skip it. The kernel then runs the filters on the changed call (`recheck_after_trace`); if they want it
traced once more, it is executed. Stops of the tracer at system call entry (PTRACE_SYSCALL) come before the filters and so are part of how
the call came to be `d`.
-/
set_option autoImplicit false

namespace Kernel
open Bpfvm

/-- What the tracer does when it is asked. -/
inductive Order where
  /-- the call is skipped (number below 0), with this value in the result register -/
  | skip (v : Int)
  /-- go on with this call: the same or another one -/
  | go (d : SeccompData)

/-- What becomes of a call of a traced thread. -/
inductive Ending where
  /-- this call is executed -/
  | executes (d : SeccompData)
  /-- nothing is executed, and this is the result -/
  | returns (v : Int)
  | trap
  | killThread
  | killProcess

/-- The fate of `d` by the filters alone. -/
def Outcome.ending (d : SeccompData) : Outcome → Ending
  | .executed => .executes d
  | .errno n => .returns (-(n : Int))
  | .trap => .trap
  | .killThread => .killThread
  | .killProcess => .killProcess

/-- SECCOMP_RET_TRACE. -/
def wantsTrace (ret : BitVec 32) : Bool := ret &&& 0xffff0000#32 == 0x7ff00000#32

/-- The message for the tracer (PTRACE_GETEVENTMSG) if it is asked about the call `d`. -/
def told (t : Thread) (d : SeccompData) : Option (BitVec 16) :=
  let ret := runFilters t.filters d
  if wantsTrace ret then some (ret.setWidth 16) else none

/-- `__seccomp_filter` for the call `d` of the thread `t` whose tracer does `o` if it is asked. -/
def enterTraced (t : Thread) (d : SeccompData) (o : Order) : Ending :=
  if wantsTrace (runFilters t.filters d) then
    match o with
    | .skip v => .returns v
    | .go d' => if wantsTrace (runFilters t.filters d') then .executes d' else (enter t d').ending d'
  else (enter t d).ending d

end Kernel
