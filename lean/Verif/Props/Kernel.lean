import Verif.Proofs.KernelTotal
import Verif.Props.Install

/-!
# C67: every installed filter gives every call a verdict

This is about the kernel environment rather than /repo, but it is what makes "the verdict of a filter" well defined, whoever installed
it.
-/
set_option autoImplicit false

namespace Props
open Pledge Bpfvm Spec Kernel

/-- C67: a program that passes the kernel's checks returns a value on every record, within as many instructions as it has, and the same
value whatever the scratch memory held before. -/
theorem C67_accepted_total (p : Prog) (h : accepts p = true) (d : SeccompData) :
    ∃ v, ∀ m0, run m0 p d.words = some v ∧ runFor p d.words p.length { pc := 0, A := 0, X := 0, M := m0 } = some v := by
  have hlen : 0 < p.length := by
    simp only [accepts, Bool.and_eq_true, decide_eq_true_eq] at h
    omega
  have hmem : memFrom 0 (fun _ => ~~~0) 0 (p.drop 0) = true := by
    simp only [accepts, Bool.and_eq_true] at h
    exact h.1.2
  have key : ∀ m0 m1 : Nat → BitVec 32, ∃ v, runFor p d.words p.length { pc := 0, A := 0, X := 0, M := m0 } = some v ∧
      runFor p d.words p.length { pc := 0, A := 0, X := 0, M := m1 } = some v := fun m0 m1 =>
    total p d.words h (by simp [SeccompData.words]) p.length _ _ (fun _ => ~~~0) 0 (by simp) hlen hmem
      ⟨rfl, rfl, rfl, fun j _ hj => by simp at hj⟩
  obtain ⟨v, hv, -⟩ := key (fun _ => 0) (fun _ => 0)
  refine ⟨v, fun m0 => ?_⟩
  obtain ⟨v', h1, h2⟩ := key (fun _ => 0) m0
  rw [hv] at h1
  injection h1 with h1
  subst h1
  exact ⟨runFrom_of_runFor _ _ _ _ _ h2, h2⟩

/-- Not vacuous: a filter that uses scratch memory. -/
example := C67_accepted_total [⟨0x20, 0, 0, 0⟩, ⟨0x02, 0, 0, 3⟩, ⟨0x60, 0, 0, 3⟩, ⟨0x16, 0, 0, 0⟩] (by decide) (mkCall 2 [])

theorem setSeccomp_accepted (fault : Option Fault) (p : Prog) (t : Thread) (h : ∀ f ∈ t.filters, accepts f = true) :
    ∀ f ∈ (setSeccomp fault p t).1.filters, accepts f = true := by
  unfold setSeccomp
  split
  · exact h
  · split
    · exact h
    · split
      · exact h
      · split
        · exact h
        · rename_i ha
          intro f hf
          simp only [List.mem_cons] at hf
          rcases hf with rfl | hf
          · simpa using ha
          · exact h f hf

theorem syscall_accepted (hd : Option Int) (t : Thread) (d : SeccompData) (body : Thread → Thread × Int)
    (h : ∀ f ∈ t.filters, accepts f = true) (hb : ∀ f ∈ (body t).1.filters, accepts f = true) :
    ∀ f ∈ (syscall hd t d body).1.filters, accepts f = true := by
  unfold syscall
  split
  · exact hb
  · exact h
  · split <;> exact h
  · exact h

theorem setNnp_filters (fault : Option Fault) (t : Thread) : (setNnp fault t).1.filters = t.filters := by
  unfold setNnp; split <;> rfl

theorem pledge_accepted (b : Build) (env : Env) (t : Thread) (ps : List Promise) (v : SeccompReturn)
    (h : ∀ f ∈ t.filters, accepts f = true) : ∀ f ∈ (pledgeOverride b env t ps v).1.filters, accepts f = true := by
  have h1 : ∀ f ∈ (syscall (env.onTrap env.trapRet.1) t (recNnp env) (setNnp env.nnpFault)).1.filters, accepts f = true :=
    syscall_accepted _ t _ _ h (by rw [setNnp_filters]; exact h)
  unfold pledgeOverride
  split
  · exact h
  · split
    · exact h
    · exact h
    · simp only
      split
      · exact h1
      · split <;> exact syscall_accepted _ _ _ _ h1 (setSeccomp_accepted _ _ _ h1)

theorem on_accepted (s : System) (i : Nat) (f : Thread → Thread × Option Outcome)
    (hf : ∀ t, (∀ g ∈ t.filters, accepts g = true) → ∀ g ∈ (f t).1.filters, accepts g = true)
    (hs : ∀ t ∈ s, ∀ g ∈ t.filters, accepts g = true) : ∀ t ∈ s.on i f, ∀ g ∈ t.filters, accepts g = true := by
  intro t' ht'
  obtain ⟨j, hj⟩ := List.mem_iff_getElem?.1 ht'
  obtain ⟨t, h1, h2⟩ := on_get s i f j t' hj
  have ht := hs t (List.mem_of_getElem? h1)
  rcases h2 with ⟨ha, -⟩ | ⟨-, -, ha, -⟩
  · rw [ha]; exact ht
  · rw [ha]; exact hf t ht

/-- C67: in every history of a program that starts without filters, every filter of every thread passed the checks; so by
`C67_accepted_total` every call of every thread gets a verdict of every filter. This includes filters installed without the library. -/
theorem C67_always_a_verdict (s : System) (hs : Fresh s) (ops : List Op) (t : Thread) (ht : t ∈ s.run ops) (f : Prog)
    (hf : f ∈ t.filters) : accepts f = true ∧ ∀ d : SeccompData, ∃ v, ∀ m0, run m0 f d.words = some v := by
  have inv : ∀ (ops : List Op) (s : System), (∀ t ∈ s, ∀ g ∈ t.filters, accepts g = true) →
      ∀ t ∈ s.run ops, ∀ g ∈ t.filters, accepts g = true := by
    intro ops
    induction ops with
    | nil => intro s h; exact h
    | cons op ops ih =>
      intro s h
      apply ih (s.step op)
      cases op with
      | pledge i b env ps v => exact on_accepted s i _ (fun t => pledge_accepted b env t ps v) h
      | call i d hd => exact on_accepted s i _ (fun t h => h) h
      | setNnp i d hd fault =>
        exact on_accepted s i _ (fun t h => syscall_accepted hd t d _ h (by rw [setNnp_filters]; exact h)) h
      | setSeccomp i d hd fault p =>
        exact on_accepted s i _ (fun t h => syscall_accepted hd t d _ h (setSeccomp_accepted fault p t h)) h
      | cred i a => exact on_accepted s i (fun t => ({ t with admin := a }, none)) (fun t h => h) h
      | crash i w => exact on_accepted s i (fun t => (t, some (if w then .killProcess else .killThread))) (fun t h => h) h
      | spawn i d hd pid tid =>
        simp only [System.step]
        split
        · rename_i u hu
          split
          · intro t ht
            rw [List.mem_append] at ht
            rcases ht with ht | ht
            · exact h t ht
            · simp only [List.mem_singleton] at ht
              subst ht
              exact h u (List.mem_of_getElem? hu)
          · exact on_accepted s i _ (fun t h => h) h
        · exact h
  have ha := inv ops s (fun t ht g hg => by rw [hs t ht] at hg; cases hg) t ht f hf
  refine ⟨ha, fun d => ?_⟩
  obtain ⟨v, hv⟩ := C67_accepted_total f ha d
  exact ⟨v, fun m0 => (hv m0).1⟩

/-- A filter that uses scratch memory and passes the checks; and a history that installs one. -/
example : accepts [⟨0x20, 0, 0, 0⟩, ⟨0x02, 0, 0, 3⟩, ⟨0x60, 0, 0, 3⟩, ⟨0x16, 0, 0, 0⟩] = true := by decide
example : accepts [⟨0x60, 0, 0, 3⟩, ⟨0x16, 0, 0, 0⟩] = false := by decide
example : Fresh [thread0] := by intro t ht; simp at ht; subst ht; rfl

end Props
