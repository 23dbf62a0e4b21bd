import Verif.Env.Teams
import Verif.Spec.Programs

/-!
# Specification: threads and processes under pledges
-/
set_option autoImplicit false

namespace Spec
open Pledge Bpfvm Kernel

/-- `ks'` are the threads `ks`, where thread `i` has, on top of its filters, those of the pledges `l i`. -/
def PledgedTeam (l : Nat → List Past) (ks ks' : List Mate) : Prop :=
  ks'.length = ks.length ∧ ∀ (i : Nat) (k : Mate), ks[i]? = some k → k.root = i ∧
    ∃ k', ks'[i]? = some k' ∧ k'.proc = k.proc ∧ k'.root = i ∧ k'.ended = k.ended ∧ Atop (l i) k.thread k'.thread

/-- Thread `i` lives, stems from thread `r` of the beginning, and its next call is `d`. -/
def Wants {σ ω ρ : Type} (m : Works σ ω ρ) (s : Team σ ω) (i r : Nat) (d : SeccompData) : Prop :=
  ∃ k, s.mates[i]? = some k ∧ k.ended = false ∧ k.root = r ∧ m.asks s.mem i = some d

/-- The same memory and world; the same was done; the same threads live and are dead. -/
def AlikeTeams {σ ω : Type} (s s' : Team σ ω) : Prop :=
  s.mem = s'.mem ∧ s.world = s'.world ∧ s.did = s'.did ∧
    s.mates.map (fun k => (k.proc, k.root, k.ended)) = s'.mates.map fun k => (k.proc, k.root, k.ended)

/-- Team `s` under schedule `es'` does what it does under `es`, except that a thread that is about to make a call that its pledges do not
permit is killed from outside: with its process if all its pledges kill the process, else alone or with its process. -/
inductive Cuts {σ ω ρ : Type} (m : Works σ ω ρ) (l : Nat → List Past) : Team σ ω → List Event → List Event → Prop where
  | done (s : Team σ ω) : Cuts m l s [] []
  | kill (s : Team σ ω) (i : Nat) (whole : Bool) (es es' : List Event) :
      Cuts m l (s.step m (.kill i whole)) es es' → Cuts m l s (.kill i whole :: es) (.kill i whole :: es')
  | turn (s : Team σ ω) (i : Nat) (es es' : List Event) : (∀ r d, Wants m s i r d → AllAllow (l r) d) →
      Cuts m l (s.step m (.turn i)) es es' → Cuts m l s (.turn i :: es) (.turn i :: es')
  | cut (s : Team σ ω) (i r : Nat) (d : SeccompData) (whole : Bool) (es es' : List Event) : Wants m s i r d → ¬ AllAllow (l r) d →
      ((∀ p ∈ l r, p.v = .KillProcess) → whole = true) →
      Cuts m l (s.step m (.kill i whole)) es es' → Cuts m l s (.turn i :: es) (.kill i whole :: es')

/-- What a deed does to the world. -/
def worldAfter {σ ω ρ : Type} (m : Works σ ω ρ) (w : ω) : Deed → ω
  | .call i d => (m.serves w i d).1
  | .death i whole => m.buries w i whole

/-- A system that itself fails the calls that not all pledges permit, with error `e`. -/
noncomputable def refusingTeam {σ ω ρ : Type} (m : Works σ ω ρ) (l : List Past) (e : Nat) : Works σ ω ρ :=
  open Classical in
  { m with
    serves := fun w i d => if AllAllow l d then m.serves w i d else (w, m.error e)
    starts := fun w i d => if AllAllow l d then m.starts w i d else none }

end Spec
