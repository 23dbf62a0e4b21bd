import Verif.Spec.Traced
import Verif.Model.Steered

/-!
# Specification: pledges of a thread whose tracer changes calls
-/
set_option autoImplicit false

namespace Spec
open Pledge Bpfvm Kernel

/-- What the kernel promises about every system call: no filter of the caller goes away, nor does no_new_privs. -/
def Lawful : Steer → Prop
  | .swap _ body => ∀ t, t.filters <:+ (body t).1.filters ∧ (t.nnp = true → (body t).1.nnp = true)
  | _ => True

/-- `filter_to_bpf` is called for these, in this order. -/
def pieces (ps : List Promise) : List Filtered := ((.Default :: ps).map fun p => (lookupPromise p).getD []).flatten

/-- The system call that the library makes in step `k` of a call, if any: a query for an id, or one of the two calls of prctl. -/
def callAt (env : Env) (q : Nat → Query) (ps : List Promise) : Nat → Option SeccompData
  | 0 => none
  | k + 1 =>
    match (pieces ps)[k]? with
    | some .KillSelf => some (q k).getpid
    | some .TkillSelf => some (q k).gettid
    | some _ => none
    | none =>
      if k = (pieces ps).length then some (recNnp env) else if k = (pieces ps).length + 1 then some (recSeccomp env) else none

/-- The thread before step `k` of a call. -/
def beforeStep (b : Build) (env : Env) (q : Nat → Query) (ss : List Steer) (t : Thread) (ps : List Promise) (v : SeccompReturn) (k : Nat) :
    Thread := (pledgeSteered b env q (ss.take k) t ps v).1

/-- The tracer is asked about the call `d` of the thread `u`. -/
def Asked (u : Thread) (d : SeccompData) : Prop := ∃ m, told u d = some m

/-- The call `d` of the thread `u` is executed: no filter objects, or the tracer lets it pass. -/
def LetPass (s : Steer) (u : Thread) (d : SeccompData) : Prop := (¬ Asked u d ∧ enter u d = .executed) ∨ (Asked u d ∧ s = .pass)

/-- The call `e`, which the tracer puts in the place of one of `u`, is executed: the filters are run again, but nobody is asked again. -/
def TakesPlace (u : Thread) (e : SeccompData) : Prop := enter u e = .executed ∨ Asked u e

/-- The call `e` of the thread `u` is stopped by a filter so that it looks successful. -/
def LooksDone (env : Env) (u : Thread) (e : SeccompData) : Prop :=
  enter u e = .errno 0 ∨ (enter u e = .trap ∧ env.handler = true ∧ env.trapRet.2 % 2 ^ 32 = 0)

/-- The tracer has made the last call of the library by `u` look successful without letting it pass; now the thread is `u'`. -/
def Faked (env : Env) (s : Steer) (u u' : Thread) : Prop :=
  match s with
  | .pass => False
  | .skip x => u' = u ∧ x % 2 ^ 32 = 0
  | .swap e body => (TakesPlace u e ∧ ∃ x, body u = (u', .ret x) ∧ x % 2 ^ 32 = 0) ∨ (¬ TakesPlace u e ∧ LooksDone env u e ∧ u' = u)

/-- A query `d` of the thread `u`, with the true answer `real`, returns `x`; `fail` is what it seems to return if a filter stops it. -/
def Answers (s : Steer) (u : Thread) (d : SeccompData) (real fail x : BitVec 32) : Prop :=
  (LetPass s u d ∧ x = real) ∨
  (¬ Asked u d ∧ enter u d ≠ .executed ∧ x = fail) ∨
  (Asked u d ∧
    match s with
    | .pass => False
    | .skip y => x = BitVec.ofInt 32 y
    | .swap e body => (TakesPlace u e ∧ ∃ u' y, body u = (u', .ret y) ∧ x = BitVec.ofInt 32 y) ∨ (¬ TakesPlace u e ∧ x = fail))

/-- The thread `u` makes the call `d`, and the call `e` is executed: `d` itself, or what the tracer puts in its place. -/
def Executes (s : Steer) (u : Thread) (d e : SeccompData) : Prop :=
  (LetPass s u d ∧ e = d) ∨ (Asked u d ∧ (∃ body, s = .swap e body) ∧ TakesPlace u e)

/-- The call of pledge_override is not over before step `k`. -/
def Going (b : Build) (env : Env) (q : Nat → Query) (ss : List Steer) (t : Thread) (ps : List Promise) (v : SeccompReturn) (k : Nat) : Prop :=
  (pledgeSteered b env q (ss.take k) t ps v).2.1.isLeft = true

/-- The thread `u` dies with `o` in its call `d`, and is left as `u'`. -/
def DiesIn (s : Steer) (u : Thread) (d : SeccompData) (u' : Thread) (o : Outcome) : Prop :=
  (¬ Asked u d ∧ enter u d = o ∧ u' = u ∧ o ∈ [.trap, .killThread, .killProcess]) ∨
  (Asked u d ∧ ∃ e body, s = .swap e body ∧
    ((TakesPlace u e ∧ body u = (u', .dead o)) ∨ (¬ TakesPlace u e ∧ enter u e = o ∧ u' = u ∧ o ∈ [.trap, .killThread, .killProcess])))

/-- The tracer of `Model/Traced.lean`, which passes or skips calls, as one of `Model/Steered.lean`. -/
def steerOf : Wish → Steer
  | .pass => .pass
  | .skip x => .skip x

/-- What it does in the steps of a call: `w 0` about each getpid, `w 1` about each gettid, `w 2` and `w 3` about the calls of prctl. -/
def steersOf (w : Fin 4 → Wish) (ps : List Promise) : List Steer :=
  .pass :: (pieces ps).map (fun
    | .KillSelf => steerOf (w 0)
    | .TkillSelf => steerOf (w 1)
    | _ => .pass) ++ [steerOf (w 2), steerOf (w 3)]

end Spec
