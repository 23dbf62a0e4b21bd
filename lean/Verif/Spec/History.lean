import Verif.Spec.Observe

/-!
# Specification: histories of threads that pledge
-/
set_option autoImplicit false

namespace Spec
open Pledge Bpfvm Kernel

/-- One pledge: the ids of the pledging thread, the promises and the violation. -/
structure Past where
  ids : Ids
  ps : List Promise
  v : SeccompReturn

/-- The filters of thread `t` are exactly the complete programs generated for the pledges `l`, newest first. -/
def HasPledged (t : Thread) (l : List Past) : Prop :=
  t.filters.map Res.ok = l.map fun p => promisesToProg ⟨false⟩ p.ids p.ps p.v

/-- The verdict of a single pledge on a record. -/
def Past.verdict (p : Past) (d : SeccompData) : Option (BitVec 32) := filterVerdict ⟨false⟩ p.ids p.ps p.v d

/-- Threads of `System.run s ops` that are one of the threads `own` of `s` or were created, directly or indirectly, by one of
them during `ops`. -/
def heirs (s : System) : List Op → List Nat → List Nat
  | [], own => own
  | op :: ops, own =>
    let s' := s.step op
    match op with
    | .spawn i _ _ _ _ => heirs s' ops (if i ∈ own ∧ s.length < s'.length then s.length :: own else own)
    | _ => heirs s' ops own

/-- Thread `t` becomes `t'` by successive calls of `pledge_override` that all return Ok; `l` lists them, newest first. -/
inductive OkPledges (t : Thread) : List Past → Thread → Prop
  | none : OkPledges t [] t
  | more (l : List Past) (u u' : Thread) (b : Build) (env : Env) (ps : List Promise) (v : SeccompReturn) :
      OkPledges t l u → pledgeOverride b env u ps v = (u', .ok) → OkPledges t (⟨⟨u.pid, u.tid⟩, ps, v⟩ :: l) u'

/-- At the start of a program no thread has a filter. -/
def Fresh (s : System) : Prop := ∀ t ∈ s, t.filters = []

/-- All violations that the history passes to `pledge_override` satisfy `V`. -/
def Violations (V : SeccompReturn → Prop) (ops : List Op) : Prop := ∀ i b env ps v, Op.pledge i b env ps v ∈ ops → V v

/-- No step of the history installs a filter without the library. -/
def OnlyPledges (ops : List Op) : Prop := ∀ op ∈ ops, ∀ i d h f p, op ≠ .setSeccomp i d h f p

end Spec
