import Verif.Env.Tracer
import Verif.Model.Signals

/-!
# src/seccomp.rs:943-1015 in a thread whose tracer does what it likes

`Model/Traced.lean` has a tracer that passes or skips the library's calls, and one query of each kind. Here every query is made, and the
tracer can also put another system call in the place of each one it is asked about, with whatever that call does to the thread.
-/
set_option autoImplicit false

namespace Pledge
open Bpfvm Kernel

/-- What the tracer does about a call of the library if it is asked. -/
inductive Steer where
  | pass
  /-- skip the call, with this value in the result register -/
  | skip (v : Int)
  /-- put the call `d` in its place; `body` is what the kernel does if it executes `d` -/
  | swap (d : SeccompData) (body : Thread → Thread × CallRes)

/-- What becomes of a call of the library. -/
inductive Fate where
  /-- it is executed -/
  | own
  /-- the call `d` is executed instead -/
  | other (d : SeccompData) (body : Thread → Thread × CallRes)
  /-- nothing is executed, and the tracer chose the result -/
  | skipped (v : Int)
  /-- nothing is executed, and the filters chose the result -/
  | refused (v : Int)
  | trap
  | killed (o : Outcome)

/-- The fate of the call `d` of the thread `t`, by `Kernel.enterTraced`. -/
def fate (s : Steer) (t : Thread) (d : SeccompData) : Fate :=
  match told t d, s with
  | some _, .skip v => .skipped v
  | some _, .swap d' body =>
    match enterTraced t d (.go d') with
    | .executes _ => .other d' body
    | .returns v => .refused v
    | .trap => .trap
    | .killThread => .killed .killThread
    | .killProcess => .killed .killProcess
  | _, _ =>
    match enterTraced t d (.go d) with
    | .executes _ => .own
    | .returns v => .refused v
    | .trap => .trap
    | .killThread => .killed .killThread
    | .killProcess => .killed .killProcess

/-- A system call of the library, cf. `Kernel.syscall`. The third component lists the calls that are executed. -/
def syscallSteered (handler : Option Int) (s : Steer) (t : Thread) (d : SeccompData) (body : Thread → Thread × Int) :
    Thread × CallRes × List SeccompData :=
  match fate s t d with
  | .own => ((body t).1, .ret (body t).2, [d])
  | .other e body' => ((body' t).1, (body' t).2, [e])
  | .skipped v => (t, .ret v, [])
  | .refused v => (t, .ret v, [])
  | .trap =>
    match handler with
    | some v => (t, .ret v, [])
    | none => (t, .dead .trap, [])
  | .killed o => (t, .dead o, [])

/-- `getpid()` (src/seccomp.rs:203) and `gettid()` (218); cf. `fragBy`. The callers keep the low 32 bits of the result register. -/
def askSteered (handler : Bool) (fail : BitVec 32) (s : Steer) (t : Thread) (d : SeccompData) (real : BitVec 32) :
    Thread × Except Outcome (BitVec 32) × List SeccompData :=
  match fate s t d with
  | .own => (t, .ok real, [d])
  | .other e body =>
    match body t with
    | (t', .ret v) => (t', .ok (BitVec.ofInt 32 v), [e])
    | (t', .dead o) => (t', .error o, [e])
  | .skipped v => (t, .ok (BitVec.ofInt 32 v), [])
  | .refused _ => (t, .ok fail, [])
  | .trap => (t, if handler then .ok fail else .error .trap, [])
  | .killed o => (t, .error o, [])

/-- `filter_to_bpf`, src/seccomp.rs:908-941; cf. `fragBy`. -/
def fragSteered (b : Build) (handler : Bool) (q : Query) (s : Steer) (t : Thread) (f : Filtered) :
    Thread × Except Outcome (Res PledgeError (List SockFilter)) × List SeccompData :=
  match f with
  | .KillSelf =>
    match askSteered handler q.fail s t q.getpid t.pid with
    | (t', .ok pid, log) => (t', .ok (filterToBpf b ⟨pid, 0⟩ .KillSelf), log)
    | (t', .error o, log) => (t', .error o, log)
  | .TkillSelf =>
    match askSteered handler q.fail s t q.gettid t.tid with
    | (t', .ok tid, log) => (t', .ok (filterToBpf b ⟨0, tid⟩ .TkillSelf), log)
    | (t', .error o, log) => (t', .error o, log)
  | f => (t, .ok (filterToBpf b ⟨0, 0⟩ f), [])

/-- The next step of a call in progress, `Act.next`, under the tracer. -/
def Act.nextSteered (a : Act) (s : Steer) (t : Thread) : Thread × (Act ⊕ PledgeRes) × List SeccompData :=
  match a.phase with
  | .start =>
    match Res.mapM getFilters ([.Default] ++ a.ps) with
    | .err e => (t, .inr (.err e), [])
    | .panic => (t, .inr .panic, [])
    | .ok filters => (t, .inl { a with phase := .making 0 filters.flatten [] }, [])
  | .making k (f :: rest) codes =>
    match fragSteered a.b a.env.handler (a.q k) s t f with
    | (t', .error o, log) => (t', .inr (.died o), log)
    | (t', .ok (.err e), log) => (t', .inr (.err e), log)
    | (t', .ok .panic, log) => (t', .inr .panic, log)
    | (t', .ok (.ok code), log) => (t', .inl { a with phase := .making (k + 1) rest (codes ++ [code]) }, log)
  | .making _ [] codes =>
    match bpfHeader a.b with
    | .err e => (t, .inr (.err e), [])
    | .panic => (t, .inr .panic, [])
    | .ok header =>
    match bpfFooter a.b a.v with
    | .err e => (t, .inr (.err e), [])
    | .panic => (t, .inr .panic, [])
    | .ok footer =>
      let prog := ([header] ++ codes ++ [footer]).flatten
      let r := syscallSteered (a.env.onTrap a.env.trapRet.1) s t (recNnp a.env) (setNnp a.env.nnpFault)
      match checkRet a.env.errno.1 r.2.1 with
      | some e => (r.1, .inr e, r.2.2)
      | none => (r.1, .inl { a with phase := .armed prog }, r.2.2)
  | .armed prog =>
    let seen := prog.take (prog.length % 2 ^ 16)
    let r := syscallSteered (a.env.onTrap a.env.trapRet.2) s t (recSeccomp a.env) (setSeccomp a.env.seccompFault seen)
    match checkRet a.env.errno.2 r.2.1 with
    | some e => (r.1, .inr e, r.2.2)
    | none => (r.1, .inr .ok, r.2.2)

/-- The steps of a call, the tracer doing `s` in the next one, and so on; until it is over or the list ends. The third component lists
the system calls executed. -/
def Act.follow (a : Act) (t : Thread) : List Steer → Thread × (Act ⊕ PledgeRes) × List SeccompData
  | [] => (t, .inl a, [])
  | s :: ss =>
    match a.nextSteered s t with
    | (t', .inr r, log) => (t', .inr r, log)
    | (t', .inl a', log) =>
      let r := a'.follow t' ss
      (r.1, r.2.1, log ++ r.2.2)

/-- `pledge_override`, src/seccomp.rs:985-1015, in a thread whose tracer does `ss`: one entry for each step, used only if the step makes
a system call about which the tracer is asked. -/
def pledgeSteered (b : Build) (env : Env) (q : Nat → Query) (ss : List Steer) (t : Thread) (ps : List Promise) (v : SeccompReturn) :
    Thread × (Act ⊕ PledgeRes) × List SeccompData :=
  Act.follow ⟨b, env, q, ps, v, .start⟩ t ss

end Pledge
