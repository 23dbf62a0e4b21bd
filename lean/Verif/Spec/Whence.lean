import Verif.Spec.Full

/-!
# Specification: where the filters of a thread come from
-/
set_option autoImplicit false

namespace Spec
open Pledge Bpfvm Kernel

/-- Threads after `hs` that are one of the threads `own` of `c` or were forked, directly or indirectly, from one of them during `hs`. A
forked process goes on with what the thread was doing; new threads and programs do not. -/
def forked (c : World) : List Happening → List Nat → List Nat
  | [], own => own
  | m :: hs, own =>
    let c' := c.step m
    match m with
    | .fork i _ _ _ _ => forked c' hs (if i ∈ own ∧ c.hands.length < c'.hands.length then c.hands.length :: own else own)
    | _ => forked c' hs own

/-- In `hs` thread `k` called `pledge_override` with these promises and this violation, or was afterwards forked, directly or indirectly,
from a thread that did so. -/
def CalledBy (c : World) (hs : List Happening) (k : Nat) (ps : List Promise) (v : SeccompReturn) : Prop :=
  ∃ i b env q seed before after, hs = before ++ .enter i b env q seed ps v :: after ∧
    k ∈ forked (c.run (before ++ [.enter i b env q seed ps v])) after [i]

/-- The filter `f` was put on top of the filters `older` in `hs`, by a step of the innermost call of a thread that is `k` or created `k`
afterwards, directly or indirectly. The call had the promises and the violation of `p`, and was made by that thread or by one it was
forked from after the call. -/
def PutBy (c : World) (hs : List Happening) (k : Nat) (f : Prog) (older : List Prog) (p : Told) : Prop :=
  ∃ before after j u u' a rest, hs = before ++ .go j :: after ∧
    (c.run before).hands[j]? = some u ∧ u.thread.alive = true ∧ u.thread.filters = older ∧
    u.errands = a :: rest ∧ a.act.ps = p.ps ∧ a.act.v = p.v ∧ CalledBy c before j p.ps p.v ∧
    ((c.run before).step (.go j)).hands[j]? = some u' ∧ u'.thread.filters = f :: older ∧ u'.errands = rest ∧
    k ∈ kin ((c.run before).step (.go j)) after [j] ∧
    p.pids.length = p.ps.count .StdIO ∧ p.tids.length = p.ps.count .StdIO ∧
    (∀ x ∈ p.pids, (∃ i ∈ u.line, i.pid = x) ∨ Invented before p.ps p.v x) ∧
    (∀ x ∈ p.tids, (∃ i ∈ u.line, i.tid = x) ∨ Invented before p.ps p.v x)

end Spec
