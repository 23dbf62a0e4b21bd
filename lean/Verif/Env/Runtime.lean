import Verif.Env.Kernel

/-!
# What the C library does when a program starts a thread, a process or another program

Not code of /repo. A pledged program rarely makes system calls itself; the C library makes them for it. Here is the order in which the C
libraries on Linux make the calls of `pthread_create` (nptl/pthread_create.c and allocatestack.c of glibc; also `std::thread::spawn`),
of `fork`, and of the start of a program, and what they do if one fails. The order is
from general knowledge of glibc, whose source was not at hand. Simplifications: `pthread_create` makes a new stack and uses no
attributes; the kernel serves every call that is executed; SIGSYS has no handler; what is done to clean up after a failure is left out.
-/
set_option autoImplicit false

namespace Kernel
open Bpfvm

/-- What the C library does if a call fails: it goes on, it gives up what it was asked to do and reports the error, or it aborts the
process. -/
inductive Care where
  | ignores | givesUp | aborts
  deriving DecidableEq

/-- How far a sequence of calls gets. -/
inductive Reach where
  /-- to the end -/
  | done
  /-- a call failed with error `n`, and the rest was given up -/
  | gaveUp (n : Nat)
  /-- a call failed, and the process aborted -/
  | aborted
  /-- the thread, or its process, was killed -/
  | died (o : Outcome)
  deriving DecidableEq

/-- The thread makes these calls one after the other. A call that the filters skip with error 0 returns 0 and looks like a success. -/
def follow (t : Thread) : List (SeccompData × Care) → Reach
  | [] => .done
  | (d, care) :: rest =>
    match enter t d with
    | .executed | .errno 0 => follow t rest
    | .errno n =>
      match care with
      | .ignores => follow t rest
      | .givesUp => .gaveUp n
      | .aborts => .aborted
    | o => .died o

/-- A C library. `clone3`: it starts threads by clone3 (435), and by clone (56) only if that fails with ENOSYS, as glibc since 2.34.
`rseq`: it registers each thread by rseq (334), as glibc since 2.35; if the first thread could be registered, it aborts the process when
another cannot. -/
structure Lib where
  clone3 : Bool
  rseq : Bool

/-- What becomes of starting a thread or a process. -/
inductive Begun where
  /-- it runs -/
  | runs
  /-- the caller gets error `n` -/
  | fails (n : Nat)
  /-- Nothing is started, and the caller goes on as if it were the new thread or process: the call that should have made it returned 0 -/
  | impostor
  /-- the caller is killed, or (`none`) aborts its process -/
  | dies (o : Option Outcome)
  /-- it is made and comes to its end before it runs what it is meant to run: it is killed, or (`none`) aborts its process -/
  | stillborn (o : Option Outcome)
  deriving DecidableEq

/-- The result of a call that makes a thread or a process; `born` is what becomes of it then. -/
def Begun.of (born : Begun) : Outcome → Begun
  | .executed => born
  | .errno 0 => .impostor
  | .errno n => .fails n
  | o => .dies (some o)

/-- What becomes of a new thread or process that has to make the calls `own` first. -/
def Begun.after (t : Thread) (own : List (SeccompData × Care)) : Begun :=
  match follow t own with
  | .done => .runs
  | .gaveUp _ | .aborted => .stillborn none
  | .died o => .stillborn (some o)

/-- The records of the calls, with the pointers and lengths that they happen to have. -/
structure ThreadCalls where
  mmap : SeccompData
  mprotect : SeccompData
  mask : SeccompData
  clone3 : SeccompData
  clone : SeccompData
  robust : SeccompData
  rseq : SeccompData
  unmask : SeccompData

/-- `pthread_create`: memory for the stack, made accessible; signals blocked; the thread, which has the filters of its creator, tells the
kernel of its robust mutexes and its rseq area and unblocks signals. -/
def newThread (lib : Lib) (t : Thread) (c : ThreadCalls) : Begun :=
  match follow t [(c.mmap, .givesUp), (c.mprotect, .givesUp), (c.mask, .ignores)] with
  | .gaveUp n => .fails n
  | .aborted => .dies none
  | .died o => .dies (some o)
  | .done =>
    let born := Begun.after t
      ([(c.robust, .ignores)] ++ (if lib.rseq then [(c.rseq, .aborts)] else []) ++ [(c.unmask, .ignores)])
    if lib.clone3 = true ∧ enter t c.clone3 ≠ .errno 38 then born.of (enter t c.clone3) else born.of (enter t c.clone)

/-- `fork`: the call `d` makes the process, which tells the kernel of its robust mutexes. -/
def newProcess (t : Thread) (d robust : SeccompData) : Begun :=
  (Begun.after t [(robust, .ignores)]).of (enter t d)

/-- `execve` by the record `d`, and the calls of the program's start until its own code runs. The program has the filters of the thread. -/
def newProgram (t : Thread) (d : SeccompData) (start : List (SeccompData × Care)) : Reach :=
  match enter t d with
  | .executed => follow t start
  | .errno n => .gaveUp n
  | o => .died o

end Kernel
