import Verif.Model.Signals
import Verif.Model.Init

/-!
# src/seccomp.rs:943-1015, src/promises.rs:84 and bpfvm/src/asm.rs:45, everything at once

`Model/Signals.lean` has calls that take many steps and are interrupted by signal handlers, and leaves out how the promise table and the
hash keys come about. `Model/Init.lean` has those, and makes the rest of a call one step. Here both are together: processes with
memories, threads, forks, exec, handlers that interrupt a call anywhere and pledge themselves, the table made once per memory, hash keys
once per thread, and every system call of `pledge_override` a step. System calls of the memory allocator (`Model/Alloc.lean`) are `other`
happenings between the steps: a call that is refused or not, and, if the allocator gives up, the end of the process.
-/
set_option autoImplicit false

namespace Pledge
open Bpfvm Kernel

/-- How far a call is with the promise table. -/
inductive Site where
  /-- going to look up the first promise, src/seccomp.rs:950; waits here while another thread makes the table -/
  | table
  /-- making the table, src/promises.rs:84 -/
  | init
  /-- the table is there; the rest of src/seccomp.rs:943-1015 -/
  | rest
  deriving DecidableEq

/-- A call of `pledge_override` in progress. -/
structure Errand where
  act : Act
  seed : Seed
  site : Site

/-- A thread, the memory it uses, whether it has hash keys, the calls it is in (innermost first), and, for reference only, its ids and
those of the threads it descends from (own ids first). -/
structure Hand where
  thread : Thread
  mem : Nat
  keys : Bool
  errands : List Errand
  line : List Ids

/-- All threads, and the promise table in each memory. -/
structure World where
  hands : List Hand
  cells : List Cell

/-- What can happen next. Threads are named by their position. -/
inductive Happening where
  /-- thread `i` calls `pledge_override`, possibly in a handler that has interrupted other calls. -/
  | enter (i : Nat) (b : Build) (env : Env) (q : Nat → Query) (seed : Seed) (ps : List Promise) (v : SeccompReturn)
  /-- thread `i` does the next step of its innermost call, or waits. -/
  | go (i : Nat)
  /-- a handler in thread `i` jumps out of the innermost call. -/
  | leave (i : Nat)
  /-- thread `i` makes a process: a copy of the memory, of the thread and of the calls in progress in it. -/
  | fork (i : Nat) (d : SeccompData) (h : Option Int) (pid tid : BitVec 32)
  /-- thread `i` makes a thread in the same memory. -/
  | clone (i : Nat) (d : SeccompData) (h : Option Int) (tid : BitVec 32)
  /-- thread `i` replaces the program of its process: all threads of the process end, and one in a new memory takes over, with the
  process id as thread id. -/
  | exec (i : Nat) (d : SeccompData) (h : Option Int)
  /-- any other operation, by any thread. -/
  | other (op : Op)

/-- The thread states. -/
def World.threads (c : World) : System := c.hands.map Hand.thread

/-- The same with other thread states. -/
def World.withThreads (c : World) (s : System) : World :=
  { c with hands := List.zipWith (fun w t => { w with thread := t }) c.hands s }

/-- The innermost call of thread `i` ends with result `r`: the thread dies in it, or goes on with what the call had interrupted. -/
def World.ends (c : World) (i : Nat) (w : Hand) (r : PledgeRes) : World :=
  let c' := { c with hands := c.hands.set i { w with errands := w.errands.tail } }
  match r.death with
  | some o => c'.withThreads (reap c'.threads i w.thread.pid o)
  | none => c'

/-- The thread with its innermost call replaced. -/
def Hand.with (w : Hand) (f : Errand) : Hand := { w with errands := f :: w.errands.tail }

/-- Does the next step of the call make a label map? src/seccomp.rs:963-978 assembles every fragment (bpfvm/src/asm.rs:45). -/
def Act.assembles (a : Act) : Bool :=
  match a.phase with
  | .making _ _ _ => true
  | _ => false

/-- One step of the innermost call `f` of thread `i`. Waiting for the table: src/seccomp.rs:950; making it: src/promises.rs:84, where
`HashMap::from` asks for hash keys if the thread has none; then the steps of `Act.next`. A thread without hash keys asks for them when it
makes its first label map (bpfvm/src/asm.rs:45); the first filter of every call is `exit`, which asks for no id, so that this comes
before the first system call of the library. -/
def World.advance (c : World) (i : Nat) (w : Hand) (f : Errand) : World :=
  let put (w : Hand) (cells : List Cell) : World := { hands := c.hands.set i w, cells := cells }
  match f.site with
  | .table =>
    match c.cells[w.mem]? with
    | some .ready => put (w.with { f with site := .rest }) c.cells
    | some .idle => put (w.with { f with site := .init }) (c.cells.set w.mem .running)
    | some .poisoned => c.ends i w .panic
    | _ => c
  | .init =>
    if w.keys then put (w.with { f with site := .rest }) (c.cells.set w.mem .ready)
    else match askKeys f.act.env.handler w.thread f.seed with
      | .ok () => put ({ w with keys := true }.with { f with site := .rest }) (c.cells.set w.mem .ready)
      | .error .panic => { c with cells := c.cells.set w.mem .poisoned }.ends i w .panic
      | .error r => c.ends i w r
  | .rest =>
    if f.act.assembles && !w.keys then
      match askKeys f.act.env.handler w.thread f.seed with
      | .ok () => put { w with keys := true } c.cells
      | .error r => c.ends i w r
    else
      match f.act.next w.thread with
      | (t, .inl a) => put ({ w with thread := t }.with { f with act := a }) c.cells
      | (t, .inr r) => c.ends i { w with thread := t } r

/-- One happening. Impossible ones, and those of dead or missing threads, do nothing. -/
def World.step (c : World) (m : Happening) : World :=
  match m with
  | .enter i b env q seed ps v =>
    match c.hands[i]? with
    | some w =>
      if w.thread.alive then
        { c with hands := c.hands.set i { w with errands := ⟨⟨b, env, q, ps, v, .start⟩, seed, .table⟩ :: w.errands } }
      else c
    | none => c
  | .go i =>
    match c.hands[i]? with
    | some w =>
      match w.errands with
      | f :: _ => if w.thread.alive then c.advance i w f else c
      | [] => c
    | none => c
  | .leave i =>
    match c.hands[i]? with
    | some w => if w.thread.alive then { c with hands := c.hands.set i { w with errands := w.errands.tail } } else c
    | none => c
  | .fork i d h pid tid =>
    match c.hands[i]? with
    | some w =>
      if w.thread.alive ∧ Kernel.enter w.thread d = .executed then
        { hands := c.hands ++ [⟨{ w.thread with pid := pid, tid := tid }, c.cells.length, w.keys, w.errands, ⟨pid, tid⟩ :: w.line⟩]
          cells := c.cells ++ [c.cells[w.mem]?.getD .idle] }
      else c.withThreads (c.threads.step (.call i d h))
    | none => c
  | .clone i d h tid =>
    match c.hands[i]? with
    | some w =>
      if w.thread.alive ∧ Kernel.enter w.thread d = .executed then
        { c with hands := c.hands ++ [⟨{ w.thread with tid := tid }, w.mem, false, [], ⟨w.thread.pid, tid⟩ :: w.line⟩] }
      else c.withThreads (c.threads.step (.call i d h))
    | none => c
  | .exec i d h =>
    match c.hands[i]? with
    | some w =>
      if w.thread.alive ∧ Kernel.enter w.thread d = .executed then
        { hands := (c.hands.map fun u =>
            if u.mem = w.mem then { u with thread := { u.thread with alive := false } } else u) ++
              [⟨{ w.thread with tid := w.thread.pid }, c.cells.length, false, [], ⟨w.thread.pid, w.thread.pid⟩ :: w.line⟩]
          cells := c.cells ++ [.idle] }
      else c.withThreads (c.threads.step (.call i d h))
    | none => c
  | .other op =>
    match op with
    | .pledge _ _ _ _ _ | .spawn _ _ _ _ _ => c
    | op => c.withThreads (c.threads.step op)

/-- A run. -/
def World.run (c : World) (ms : List Happening) : World := ms.foldl World.step c

end Pledge
