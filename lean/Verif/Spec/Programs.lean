import Verif.Env.Programs
import Verif.Spec.Runtime

/-!
# Specification: programs under pledges
-/
set_option autoImplicit false

namespace Spec
open Pledge Bpfvm Kernel

/-- Thread `t'` has the filters of thread `t`, whoever made them, and on top of them those of the pledges `l`. -/
def Atop (l : List Past) (t t' : Thread) : Prop :=
  ∃ fs, HasPledged { t with filters := fs } l ∧ t'.filters = fs ++ t.filters

/-- After `n` steps the program lives, and its next call is `d`. -/
def Asks {σ ω ρ : Type} (m : Machine σ ω ρ) (s : Life σ ω) (n : Nat) (d : SeccompData) : Prop :=
  (s.run m n).ended = none ∧ m.asks (s.run m n).prog = some d

/-- All pledges permit the call. -/
def AllAllow (l : List Past) (d : SeccompData) : Prop := ∀ p ∈ l, Allows p.ids p.ps d

/-- The same program, at the same point, in the same world, having done the same. -/
def Alike {σ ω : Type} (s s' : Life σ ω) : Prop :=
  s.prog = s'.prog ∧ s.world = s'.world ∧ s.did = s'.did ∧ s.ended = s'.ended

/-- A system that itself fails the calls that not all pledges permit, with error `e`. -/
noncomputable def refusing {σ ω ρ : Type} (m : Machine σ ω ρ) (l : List Past) (e : Nat) : Machine σ ω ρ :=
  open Classical in
  { m with serves := fun w d => if AllAllow l d then m.serves w d else (w, m.error e) }

end Spec
