import Verif.Model.Ids

/-!
# src/seccomp.rs:943-1015 with signal handlers

`Model/Sched.lean` lets a thread inside `pledge_override` do nothing else. Here it can be interrupted by signal handlers between any
two steps. A handler can do everything: make system calls, change credentials, create threads, fork, call `pledge_override` again
(and be interrupted in it), or jump out of the interrupted call. Each id query is a step of its own, as in `Model/Ids.lean`.
After a fork the child goes on with all calls that were in progress in the thread that forked.
Simplification: the promise table is initialised already (a handler that interrupts its initialisation and pledges would block).
-/
set_option autoImplicit false

namespace Pledge
open Bpfvm Kernel

/-- How far a call of `pledge_override` has come. -/
inductive Phase where
  /-- called, src/seccomp.rs:985 -/
  | start
  /-- generating, src/seccomp.rs:963-966: `codes` are the fragments of the first `k` filters, `rest` are the filters still to do. -/
  | making (k : Nat) (rest : List Filtered) (codes : List (List SockFilter))
  /-- `prctl(PR_SET_NO_NEW_PRIVS)` has succeeded, src/seccomp.rs:998-1001 -/
  | armed (prog : List SockFilter)

/-- A call of `pledge_override` in progress: its arguments, what it does not control, and how far it has come. `q k` belongs to the
`k`-th filter, as in `fragsBy`. -/
structure Act where
  b : Build
  env : Env
  q : Nat → Query
  ps : List Promise
  v : SeccompReturn
  phase : Phase

/-- The next step of a call in progress by thread `t`, at most one system call: the thread after it, and either the rest of the call
or its end. Lines of src/seccomp.rs: `start` 947-952 (`promises_to_prog`), `making` 963-966 (`filters_to_prog`, one filter per step)
and, when all filters are done, 968-978 and 998-1001; `armed` 992-995 and 1003-1014. -/
def Act.next (a : Act) (t : Thread) : Thread × (Act ⊕ PledgeRes) :=
  match a.phase with
  | .start =>
    match Res.mapM getFilters ([.Default] ++ a.ps) with
    | .err e => (t, .inr (.err e))
    | .panic => (t, .inr .panic)
    | .ok filters => (t, .inl { a with phase := .making 0 filters.flatten [] })
  | .making k (f :: rest) codes =>
    match (fragBy a.b a.env.handler t (a.q k) f).2 with
    | .error o => (t, .inr (.died o))
    | .ok (.err e) => (t, .inr (.err e))
    | .ok .panic => (t, .inr .panic)
    | .ok (.ok code) => (t, .inl { a with phase := .making (k + 1) rest (codes ++ [code]) })
  | .making _ [] codes =>
    match bpfHeader a.b with
    | .err e => (t, .inr (.err e))
    | .panic => (t, .inr .panic)
    | .ok header =>
    match bpfFooter a.b a.v with
    | .err e => (t, .inr (.err e))
    | .panic => (t, .inr .panic)
    | .ok footer =>
      let prog := ([header] ++ codes ++ [footer]).flatten
      let r := syscall (a.env.onTrap a.env.trapRet.1) t (recNnp a.env) (setNnp a.env.nnpFault)
      match checkRet a.env.errno.1 r.2 with
      | some e => (r.1, .inr e)
      | none => (r.1, .inl { a with phase := .armed prog })
  | .armed prog =>
    let seen := prog.take (prog.length % 2 ^ 16)
    let r := syscall (a.env.onTrap a.env.trapRet.2) t (recSeccomp a.env) (setSeccomp a.env.seccompFault seen)
    match checkRet a.env.errno.2 r.2 with
    | some e => (r.1, .inr e)
    | none => (r.1, .inr .ok)

/-- A thread, the calls of `pledge_override` it is in (innermost first: a handler runs on top of what it interrupts), and, for
reference only, the ids of the thread and of the threads it descends from (own ids first). -/
structure Busy where
  thread : Thread
  acts : List Act
  line : List Ids

/-- A system of such threads. -/
abbrev Wild := List Busy

/-- What can happen next. Threads are named by their position. -/
inductive Move where
  /-- thread `i` calls `pledge_override`, possibly in a handler that has interrupted other calls. -/
  | enter (i : Nat) (b : Build) (env : Env) (q : Nat → Query) (ps : List Promise) (v : SeccompReturn)
  /-- thread `i` does the next step of its innermost call of `pledge_override`. -/
  | go (i : Nat)
  /-- a handler in thread `i` jumps out of the innermost call. -/
  | leave (i : Nat)
  /-- thread `i` makes the thread- or process-creating system call `d`. If it is executed the child has these ids. `copies`: the
  child goes on with the calls in progress (fork); otherwise it starts elsewhere (a new thread). -/
  | fork (i : Nat) (d : SeccompData) (h : Option Int) (pid tid : BitVec 32) (copies : Bool)
  /-- any other operation, by any thread. -/
  | other (op : Op)

/-- The same system with the thread states of `s`. -/
def Wild.withThreads (w : Wild) (s : System) : Wild := List.zipWith (fun sl t => { sl with thread := t }) w s

/-- The thread states. -/
def Wild.threads (w : Wild) : System := w.map Busy.thread

/-- One move. Impossible moves, and moves of dead or missing threads, do nothing. -/
def Wild.step (w : Wild) (m : Move) : Wild :=
  match m with
  | .enter i b env q ps v =>
    match w[i]? with
    | some sl => if sl.thread.alive then w.set i { sl with acts := ⟨b, env, q, ps, v, .start⟩ :: sl.acts } else w
    | none => w
  | .go i =>
    match w[i]? with
    | some ⟨t, a :: rest, line⟩ =>
      if t.alive then
        match a.next t with
        | (t', .inl a') => w.set i ⟨t', a' :: rest, line⟩
        | (t', .inr r) =>
          let w' : Wild := w.set i ⟨t', rest, line⟩
          match r.death with
          | some o => w'.withThreads (reap w'.threads i t.pid o)
          | none => w'
      else w
    | _ => w
  | .leave i =>
    match w[i]? with
    | some sl => if sl.thread.alive then w.set i { sl with acts := sl.acts.tail } else w
    | none => w
  | .fork i d h pid tid copies =>
    match w[i]? with
    | some sl =>
      if sl.thread.alive ∧ Kernel.enter sl.thread d = .executed then
        w ++ [⟨{ sl.thread with pid := pid, tid := tid }, if copies then sl.acts else [], ⟨pid, tid⟩ :: sl.line⟩]
      else w.withThreads (w.threads.step (.call i d h))
    | none => w
  | .other op =>
    match op with
    | .pledge _ _ _ _ _ | .spawn _ _ _ _ _ => w
    | op => w.withThreads (w.threads.step op)

/-- A run. -/
def Wild.run (w : Wild) (ms : List Move) : Wild := ms.foldl Wild.step w

end Pledge
