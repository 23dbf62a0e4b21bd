import Verif.Env.Kernel

/-!
# Signal handlers of a thread

Not code of /repo. `Env/Kernel.lean` takes for granted that a handler of SIGSYS comes back. Here is what Linux on x86-64 does: a handler
is entered with signals blocked, and it returns by a system call, rt_sigreturn (15), which passes the filters as every other does.
SIGSYS for a call that the filters trap is forced: if it is blocked, or has no handler, the process dies (`force_sig_info_to_task`,
kernel/signal.c). Simplifications: one thread; of the blocked signals only SIGSYS; a thread's set of blocked signals is changed only by
handlers that start and return, and by the calls rt_sigprocmask (14) and rt_sigreturn (15); a tracer that changes it is left out. Waiting
calls such as ppoll change it only until they come back, and a filter does not send SIGSYS during that time. Any executed call may install
filters, which is more than the kernel allows.
-/
set_option autoImplicit false

namespace Kernel
open Bpfvm

/-- What the process does about SIGSYS at the moment: whether it has a handler, and whether that handler is entered with SIGSYS not
blocked (SA_NODEFER). -/
structure Disposition where
  handler : Bool
  nodefer : Bool

/-- A thread with the handlers it is in. -/
structure Minded where
  thread : Thread
  /-- SIGSYS is blocked -/
  blocked : Bool
  /-- the handlers in progress, innermost first: whether SIGSYS was blocked in the code that was interrupted -/
  frames : List Bool
  /-- a handler wanted to return and was refused without being killed. What runs next is whatever lies behind the rt_sigreturn
  instruction; nothing is said about it. -/
  lost : Bool

/-- What the thread does, or what happens to it. -/
inductive Doing where
  /-- It makes the system call `d`. `dp`: what the process does about SIGSYS then. If `d` is executed and one of the calls that can set
  the blocked signals, `mask` tells whether SIGSYS is among them afterwards, `none` that this stays as it is. If `d` is executed, `more`
  are the filters it installs. -/
  | call (d : SeccompData) (dp : Disposition) (mask : Option Bool) (more : List Prog)
  /-- A handler of some signal starts; `hides`: it is entered with SIGSYS blocked. -/
  | signal (hides : Bool)
  /-- The innermost handler returns; `ip` and `junk` are in the registers that rt_sigreturn does not use. -/
  | ret (ip : BitVec 64) (junk : Fin 6 → BitVec 64) (dp : Disposition)
  /-- The innermost handlers, `n` in number, are left by a jump. The blocked signals stay. -/
  | jump (n : Nat)

/-- The record of `rt_sigreturn()`. -/
def sigreturn (ip : BitVec 64) (junk : Fin 6 → BitVec 64) : SeccompData :=
  { nr := 15, arch := 0xC000003E, instructionPointer := ip, args := junk }

/-- The calls that can set the blocked signals for good: rt_sigprocmask and rt_sigreturn. Calls in the manner of another architecture
(also x32, whose numbers have bit 30) are counted in, without a look at their numbers. -/
def setsMask (d : SeccompData) : Bool := d.arch != 0xC000003E#32 || 0x40000000#32 ≤ d.nr || d.nr == 14#32 || d.nr == 15#32

/-- SIGSYS is sent by a filter. -/
def Minded.sigsys (s : Minded) (dp : Disposition) : Minded :=
  if dp.handler = true ∧ s.blocked = false then { s with blocked := !dp.nodefer, frames := s.blocked :: s.frames }
  else { s with thread := { s.thread with alive := false } }

/-- One step. Nothing happens to a dead thread, and nothing is said about a lost one. -/
def Minded.step (s : Minded) (x : Doing) : Minded :=
  if s.thread.alive = false ∨ s.lost = true then s
  else match x with
  | .call d dp mask more =>
    match enter s.thread d with
    | .executed =>
      { s with
        blocked := if setsMask d then mask.getD s.blocked else s.blocked
        thread := { s.thread with filters := more ++ s.thread.filters } }
    | .errno _ => s
    | .trap => s.sigsys dp
    | _ => { s with thread := { s.thread with alive := false } }
  | .signal hides => { s with blocked := s.blocked || hides, frames := s.blocked :: s.frames }
  | .ret ip junk dp =>
    match s.frames with
    | [] => s
    | before :: frames =>
      match enter s.thread (sigreturn ip junk) with
      | .executed => { s with blocked := before, frames := frames }
      | .errno _ => { s with lost := true }
      | .trap => s.sigsys dp
      | _ => { s with thread := { s.thread with alive := false } }
  | .jump n => { s with frames := s.frames.drop n }

/-- A run. -/
def Minded.run (s : Minded) (xs : List Doing) : Minded := xs.foldl Minded.step s

end Kernel
