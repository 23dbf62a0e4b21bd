import Verif.Spec.Full

/-!
# Specification: how calls end in the model with everything at once
-/
set_option autoImplicit false

namespace Spec
open Pledge Bpfvm Kernel

/-- What the request of thread `w` for hash keys makes of its call `f`, if that ends it. -/
def keysEnd (w : Hand) (f : Errand) : Option PledgeRes :=
  if w.keys then none
  else match askKeys f.act.env.handler w.thread f.seed with
    | .ok () => none
    | .error r => some r

/-- What the innermost call of thread `i` returns in the thread's next step (or that it panics, or the thread dies in it). Nothing, if the
call goes on or waits, and if there is no such call. -/
def nextResult (c : World) (i : Nat) : Option PledgeRes :=
  match c.hands[i]? with
  | some w =>
    match w.errands with
    | f :: _ =>
      if w.thread.alive then
        match f.site with
        | .table => if c.cells[w.mem]? = some .poisoned then some .panic else none
        | .init => keysEnd w f
        | .rest =>
          if f.act.assembles && !w.keys then keysEnd w f
          else match (f.act.next w.thread).2 with
            | .inr r => some r
            | .inl _ => none
      else none
    | [] => none
  | none => none

/-- The calls that end in a run, in order: thread and result. -/
def resultsIn (c : World) : List Happening → List (Nat × PledgeRes)
  | [] => []
  | m :: hs =>
    (match m with
      | .go i => (nextResult c i).toList.map (i, ·)
      | _ => []) ++ resultsIn (c.step m) hs

/-- Thread `i` is inside `pledge_override` and about to ask for hash keys, for the promise table or a label map; its filters refuse the
request without ending the thread, and the standard library panics for want of random bytes. -/
def Balks (c : World) (i : Nat) : Prop :=
  ∃ w f rest, c.hands[i]? = some w ∧ w.thread.alive = true ∧ w.errands = f :: rest ∧ w.keys = false ∧
    (f.site = .init ∨ f.site = .rest ∧ f.act.assembles = true) ∧ f.seed.fallback = .panics ∧
    ((∃ n, enter w.thread f.seed.getrandom = .errno n) ∨ enter w.thread f.seed.getrandom = .trap ∧ f.act.env.handler = true)

/-- Thread `i` is inside `pledge_override` and about to use a promise table the making of which has panicked. -/
def Spoilt (c : World) (i : Nat) : Prop :=
  ∃ w f rest, c.hands[i]? = some w ∧ w.thread.alive = true ∧ w.errands = f :: rest ∧ f.site = .table ∧
    c.cells[w.mem]? = some .poisoned

/-- The two calls are calls with the same arguments in the same circumstances. -/
def SameCall (f g : Errand) : Prop :=
  g.seed = f.seed ∧ g.act.b = f.act.b ∧ g.act.env = f.act.env ∧ g.act.q = f.act.q ∧ g.act.ps = f.act.ps ∧ g.act.v = f.act.v

end Spec
