import Verif.Model.Pledge

/-!
# src/promises.rs:84 and bpfvm/src/asm.rs:45: the one-time initialisation of the promise table, and hash keys

The promise table is a `once_cell::sync::Lazy<HashMap<..>>`: the first thread of a process that looks something up makes the table,
others wait meanwhile. Making a `HashMap` (the table, or the label map of the assembler) takes the hash keys of the thread, which the
standard library gets from the kernel (`getrandom`) at the first time in each thread. `Model/Pledge.lean` leaves both out; C86 and C87
say what they change.
-/
set_option autoImplicit false

namespace Pledge
open Bpfvm Kernel

/-- What the standard library does if `getrandom` is refused without ending the thread: it finds random bytes in another way
(/dev/urandom), it panics, or the thread dies in the attempt. -/
inductive Fallback where
  | recovers
  | panics
  | dies (o : Outcome)

/-- What the library does not control about a thread's request for hash keys. -/
structure Seed where
  /-- instruction pointer -/
  ip : BitVec 64
  /-- argument registers: a buffer, its length and flags, as chosen by the standard library -/
  args : Fin 6 → BitVec 64
  fallback : Fallback

/-- The record of `getrandom`: system call 318 on x86-64. Made by `RandomState::new`, for src/promises.rs:84 (`HashMap::from`) or
bpfvm/src/asm.rs:45 (`HashMap::new`). -/
def Seed.getrandom (s : Seed) : SeccompData :=
  { nr := 318, arch := 0xC000003E, instructionPointer := s.ip, args := s.args }

/-- The request for hash keys by thread `t`, which may have a SIGSYS handler. Not code of /repo but of the standard library.
Simplification: what the fallback does has no effect on anything modelled here. -/
def askKeys (handler : Bool) (t : Thread) (s : Seed) : Except PledgeRes Unit :=
  let instead : Except PledgeRes Unit :=
    match s.fallback with
    | .recovers => .ok ()
    | .panics => .error .panic
    | .dies o => .error (.died o)
  match enter t s.getrandom with
  | .executed => .ok ()
  | .errno _ => instead
  | .trap => if handler then instead else .error (.died .trap)
  | o => .error (.died o)

/-- `pledge_override`, src/seccomp.rs:985-1015, called by a thread that has its hash keys (`keys`) or not, when the promise table is
there. If it has none it asks for them before the first system call of the library: in src/seccomp.rs:947 the entry for `Default` comes
first, and its only fragment (`exit`) asks for no id. -/
def pledgeKeyed (b : Build) (env : Env) (s : Seed) (keys : Bool) (t : Thread) (ps : List Promise) (v : SeccompReturn) :
    Thread × PledgeRes :=
  if keys then pledgeOverride b env t ps v
  else match askKeys env.handler t s with
    | .error r => (t, r)
    | .ok () => pledgeOverride b env t ps v

/-! ## Several threads and processes -/

/-- The state of the `Lazy` in the memory of a process, src/promises.rs:84. -/
inductive Cell where
  /-- not yet used -/
  | idle
  /-- a thread is making the table -/
  | running
  /-- the table is there -/
  | ready
  /-- making the table has panicked: every further use panics -/
  | poisoned
  deriving DecidableEq

/-- A call of `pledge_override`: its arguments and what it does not control. -/
structure Call where
  b : Build
  env : Env
  seed : Seed
  ps : List Promise
  v : SeccompReturn

/-- How far a call has come. -/
inductive Place where
  /-- called, going to look up the first promise, src/seccomp.rs:950; waits here while another thread makes the table -/
  | table
  /-- making the table, src/promises.rs:84 -/
  | init
  /-- has the table, going to make a label map, bpfvm/src/asm.rs:45 -/
  | seed
  /-- has table and hash keys -/
  | rest
  deriving DecidableEq

structure Frame where
  call : Call
  place : Place

/-- A thread, the memory it uses, whether it has hash keys, and the calls of `pledge_override` it is in (innermost first: a signal handler
runs on top of what it interrupts). -/
structure Worker where
  thread : Thread
  mem : Nat
  keys : Bool
  frames : List Frame

/-- All threads, and the promise table in each memory. -/
structure Crew where
  workers : List Worker
  cells : List Cell

/-- What can happen next. Threads are named by their position. -/
inductive Turn where
  /-- thread `i` calls `pledge_override`, possibly in a signal handler. -/
  | enter (i : Nat) (call : Call)
  /-- thread `i` does the next step of its innermost call, or waits. -/
  | go (i : Nat)
  /-- thread `i` makes a process (`d` is the call); the child gets a copy of the memory and of the calls in progress in this thread. -/
  | fork (i : Nat) (d : SeccompData) (h : Option Int) (pid tid : BitVec 32)
  /-- thread `i` makes a thread in the same memory. -/
  | clone (i : Nat) (d : SeccompData) (h : Option Int) (tid : BitVec 32)
  /-- thread `i` replaces the program of its process: all threads of the process end, and one in a new memory takes over, with the
  process id as thread id. -/
  | exec (i : Nat) (d : SeccompData) (h : Option Int)
  /-- any other operation. -/
  | other (op : Op)

/-- The thread states. -/
def Crew.threads (c : Crew) : System := c.workers.map Worker.thread

/-- The same with other thread states. -/
def Crew.withThreads (c : Crew) (s : System) : Crew :=
  { c with workers := List.zipWith (fun w t => { w with thread := t }) c.workers s }

/-- The innermost call of thread `i` ends with result `r`: the thread dies in it, or goes on with what the call had interrupted. -/
def Crew.ends (c : Crew) (i : Nat) (w : Worker) (r : PledgeRes) : Crew :=
  let c' := { c with workers := c.workers.set i { w with frames := w.frames.tail } }
  match r.death with
  | some o => c'.withThreads (reap c'.threads i w.thread.pid o)
  | none => c'

/-- The worker with its innermost call `f` moved on to `p`. -/
def Worker.moved (w : Worker) (f : Frame) (p : Place) : Worker := { w with frames := { f with place := p } :: w.frames.tail }

/-- One step of the innermost call `f` of thread `i`. -/
def Crew.advance (c : Crew) (i : Nat) (w : Worker) (f : Frame) : Crew :=
  let put (w : Worker) (cells : List Cell) : Crew := { workers := c.workers.set i w, cells := cells }
  match f.place with
  | .table =>
    match c.cells[w.mem]? with
    | some .ready => put (w.moved f .seed) c.cells
    | some .idle => put (w.moved f .init) (c.cells.set w.mem .running)
    | some .poisoned => c.ends i w .panic
    | _ => c
  | .init =>
    if w.keys then put (w.moved f .seed) (c.cells.set w.mem .ready)
    else match askKeys f.call.env.handler w.thread f.call.seed with
      | .ok () => put ({ w with keys := true }.moved f .seed) (c.cells.set w.mem .ready)
      | .error .panic => { c with cells := c.cells.set w.mem .poisoned }.ends i w .panic
      | .error r => c.ends i w r
  | .seed =>
    if w.keys then put (w.moved f .rest) c.cells
    else match askKeys f.call.env.handler w.thread f.call.seed with
      | .ok () => put ({ w with keys := true }.moved f .rest) c.cells
      | .error r => c.ends i w r
  | .rest =>
    let r := pledgeOverride f.call.b f.call.env w.thread f.call.ps f.call.v
    c.ends i { w with thread := r.1 } r.2

/-- One turn. Impossible turns, and turns of dead or missing threads, do nothing. -/
def Crew.step (c : Crew) (m : Turn) : Crew :=
  match m with
  | .enter i call =>
    match c.workers[i]? with
    | some w => if w.thread.alive then { c with workers := c.workers.set i { w with frames := ⟨call, .table⟩ :: w.frames } } else c
    | none => c
  | .go i =>
    match c.workers[i]? with
    | some w =>
      match w.frames with
      | f :: _ => if w.thread.alive then c.advance i w f else c
      | [] => c
    | none => c
  | .fork i d h pid tid =>
    match c.workers[i]? with
    | some w =>
      if w.thread.alive ∧ Kernel.enter w.thread d = .executed then
        { workers := c.workers ++ [{ w with thread := { w.thread with pid := pid, tid := tid }, mem := c.cells.length }]
          cells := c.cells ++ [c.cells[w.mem]?.getD .idle] }
      else c.withThreads (c.threads.step (.call i d h))
    | none => c
  | .clone i d h tid =>
    match c.workers[i]? with
    | some w =>
      if w.thread.alive ∧ Kernel.enter w.thread d = .executed then
        { c with workers := c.workers ++ [⟨{ w.thread with tid := tid }, w.mem, false, []⟩] }
      else c.withThreads (c.threads.step (.call i d h))
    | none => c
  | .exec i d h =>
    match c.workers[i]? with
    | some w =>
      if w.thread.alive ∧ Kernel.enter w.thread d = .executed then
        { workers := (c.workers.map fun u => if u.mem = w.mem then { u with thread := { u.thread with alive := false } } else u) ++
            [⟨{ w.thread with tid := w.thread.pid }, c.cells.length, false, []⟩]
          cells := c.cells ++ [.idle] }
      else c.withThreads (c.threads.step (.call i d h))
    | none => c
  | .other op =>
    match op with
    | .pledge _ _ _ _ _ | .spawn _ _ _ _ _ => c
    | op => c.withThreads (c.threads.step op)

/-- A run. -/
def Crew.run (c : Crew) (ms : List Turn) : Crew := ms.foldl Crew.step c

end Pledge
