import Verif.Model.Pledge

/-!
# src/seccomp.rs:985-1015 one system call at a time

`pledgeOverride` in `Model/Pledge.lean` is one indivisible step. Here the same code is cut at its system calls, so that other
threads can run, and the thread or its process can die, between any two of them. What happens between two system calls touches
only the memory of the caller (the filter program is a local `Vec`) and is part of the following step.
Simplification: a thread that is inside `pledge_override` does nothing else, that is, it does not run signal handlers that make
system calls of their own.
-/
set_option autoImplicit false

namespace Pledge
open Bpfvm Kernel

/-- How far a call of `pledge_override` has come. -/
inductive Stage where
  /-- called, src/seccomp.rs:985 -/
  | start
  /-- `process::id()` has returned, src/seccomp.rs:203 -/
  | pid (pid : BitVec 32)
  /-- `gettid()` has returned too, src/seccomp.rs:218, or the promises do not ask for ids -/
  | ids (ids : Ids)
  /-- `prctl(PR_SET_NO_NEW_PRIVS)` has succeeded, src/seccomp.rs:998-1001 -/
  | armed (prog : List SockFilter)

/-- A call of `pledge_override` in progress. -/
structure Job where
  b : Build
  env : Env
  ps : List Promise
  v : SeccompReturn
  stage : Stage

/-- The next step of a call in progress by thread `t`: the thread after it, and either the rest of the call or its end.
Lines of src/seccomp.rs: `start` 199-203, `pid` 214-218, `ids` 989 (program generation, local) and 998-1001, `armed` 992-995 and
1003-1014. Simplification: one call of each id function however often `StdIO` is repeated (as in `askIds`). -/
def Job.next (j : Job) (t : Thread) : Thread × (Job ⊕ PledgeRes) :=
  match j.stage with
  | .start =>
    if asksIds j.ps then
      match askId j.env t (recGetpid j.env) t.pid j.env.idFail.pid with
      | .error o => (t, .inr (.died o))
      | .ok pid => (t, .inl { j with stage := .pid pid })
    else (t, .inl { j with stage := .ids ⟨t.pid, t.tid⟩ })
  | .pid pid =>
    match askId j.env t (recGettid j.env) t.tid j.env.idFail.tid with
    | .error o => (t, .inr (.died o))
    | .ok tid => (t, .inl { j with stage := .ids ⟨pid, tid⟩ })
  | .ids ids =>
    match promisesToProg j.b ids j.ps j.v with
    | .err e => (t, .inr (.err e))
    | .panic => (t, .inr .panic)
    | .ok prog =>
      let r := syscall (j.env.onTrap j.env.trapRet.1) t (recNnp j.env) (setNnp j.env.nnpFault)
      match checkRet j.env.errno.1 r.2 with
      | some e => (r.1, .inr e)
      | none => (r.1, .inl { j with stage := .armed prog })
  | .armed prog =>
    let seen := prog.take (prog.length % 2 ^ 16)
    let r := syscall (j.env.onTrap j.env.trapRet.2) t (recSeccomp j.env) (setSeccomp j.env.seccompFault seen)
    match checkRet j.env.errno.2 r.2 with
    | some e => (r.1, .inr e)
    | none => (r.1, .inr .ok)

/-- A thread and the call of `pledge_override` it is in, if any. -/
structure Slot where
  thread : Thread
  job : Option Job

/-- What can be seen of a history: other operations, and the ends of calls of `pledge_override` with their results. -/
inductive Event where
  | did (op : Op)
  | returned (i : Nat) (b : Build) (env : Env) (ps : List Promise) (v : SeccompReturn) (r : PledgeRes)

/-- A system with calls in progress, and its events so far, oldest first. -/
structure Fine where
  slots : List Slot
  log : List Event

/-- The threads of a system with calls in progress. -/
def Fine.threads (f : Fine) : System := f.slots.map Slot.thread

/-- What the scheduler can choose to do next. -/
inductive Choice where
  /-- thread `i`, if it exists, lives and is not inside one, enters `pledge_override`. -/
  | enter (i : Nat) (b : Build) (env : Env) (ps : List Promise) (v : SeccompReturn)
  /-- thread `i`, if it lives and is inside `pledge_override`, does its next step. -/
  | go (i : Nat)
  /-- another operation; only by a thread that is not inside `pledge_override`, except that threads can die at any time. -/
  | other (op : Op)

/-- The threads `s` with the calls in progress of `slots`; new threads are in none. -/
def rejoin (slots : List Slot) (s : System) : List Slot :=
  s.mapIdx fun k t => ⟨t, (slots[k]?).bind Slot.job⟩

/-- Thread `i` is not inside `pledge_override` (or does not exist). -/
def Fine.idle (f : Fine) (i : Nat) : Bool :=
  match f.slots[i]? with
  | some sl => sl.job.isNone
  | none => true

/-- May `op` happen now? Whole calls of `pledge_override` are made of `enter` and `go` instead. -/
def Fine.may (f : Fine) (op : Op) : Bool :=
  match op with
  | .pledge _ _ _ _ _ => false
  | .spawn i _ _ _ _ => f.idle i
  | .call i _ _ => f.idle i
  | .setNnp i _ _ _ => f.idle i
  | .setSeccomp i _ _ _ _ => f.idle i
  | .cred i _ => f.idle i
  | .crash _ _ => true

/-- One choice of the scheduler. Impossible choices do nothing. -/
def Fine.step (f : Fine) (c : Choice) : Fine :=
  match c with
  | .enter i b env ps v =>
    match f.slots[i]? with
    | some ⟨t, none⟩ => if t.alive then { f with slots := f.slots.set i ⟨t, some ⟨b, env, ps, v, .start⟩⟩ } else f
    | _ => f
  | .go i =>
    match f.slots[i]? with
    | some ⟨t, some j⟩ =>
      if t.alive then
        match j.next t with
        | (t', .inl j') => { f with slots := f.slots.set i ⟨t', some j'⟩ }
        | (t', .inr r) =>
          let slots := f.slots.set i ⟨t', none⟩
          { slots :=
              match r.death with
              | some o => rejoin slots (reap (slots.map Slot.thread) i t.pid o)
              | none => slots
            log := f.log ++ [.returned i j.b j.env j.ps j.v r] }
      else f
    | _ => f
  | .other op =>
    if f.may op then { slots := rejoin f.slots (f.threads.step op), log := f.log ++ [.did op] } else f

/-- A schedule. -/
def Fine.run (f : Fine) (cs : List Choice) : Fine := cs.foldl Fine.step f

end Pledge
