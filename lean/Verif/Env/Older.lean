import Verif.Env.Kernel

/-!
# Older kernels

Not code of /repo. Before version 4.14 Linux did not know the actions KILL_PROCESS and LOG, and looked at an action without its highest
bit: kernel/seccomp.c of version 4.13, `seccomp_run_filters` and `__seccomp_filter`, SECCOMP_RET_ACTION is 0x7fff0000. `Env/Kernel.lean`
is about later kernels. The checker and the interpreter of filters are the same.
-/
set_option autoImplicit false

namespace Kernel
open Bpfvm

/-- `seccomp_run_filters` of version 4.13: the lowest action wins, compared without sign and without the highest bit; the newest filter
among equals. -/
def runFiltersOlder (stack : List Prog) (d : SeccompData) : BitVec 32 :=
  stack.foldl (fun ret f =>
    let cur := (run (fun _ => 0) f d.words).getD 0
    if cur &&& 0x7fff0000#32 < ret &&& 0x7fff0000#32 then cur else ret) 0x7fff0000#32

/-- `__seccomp_filter` of version 4.13. No tracer, as in `outcome`. -/
def outcomeOlder (ret : BitVec 32) : Outcome :=
  let action := ret &&& 0x7fff0000#32
  if action = 0x00050000#32 then .errno (min (ret &&& 0xffff#32).toNat 4095)
  else if action = 0x00030000#32 then .trap
  else if action = 0x7ff00000#32 then .errno 38
  else if action = 0x7fff0000#32 then .executed
  else .killThread

/-- What an older kernel does about a system call of a thread. -/
def enterOlder (t : Thread) (d : SeccompData) : Outcome := outcomeOlder (runFiltersOlder t.filters d)

end Kernel
