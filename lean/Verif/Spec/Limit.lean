import Verif.Spec.History

/-!
# Specification: the kernel's limit on the filters of a thread

Linux (`seccomp_attach_filter`): the sizes of the filters of a thread, plus a penalty of 4 for each old one, must not exceed 32768
(`MAX_INSNS_PER_PATH`); otherwise `prctl` fails with ENOMEM (12). The size of a filter is that of its translation to eBPF, which differs
between kernels; here it is any function `W`.
-/
set_option autoImplicit false

namespace Spec
open Pledge Bpfvm Kernel

/-- What the filters of a thread count when another one is added. -/
def load (W : Prog → Nat) (fs : List Prog) : Nat := (fs.map fun f => W f + 4).sum

/-- The kernel's rule for adding `f`. -/
def Fits (W : Prog → Nat) (f : Prog) (old : List Prog) : Prop := W f + load W old ≤ 32768

instance (W : Prog → Nat) (f : Prog) (old : List Prog) : Decidable (Fits W f old) := inferInstanceAs (Decidable (_ ≤ _))

/-- The environment of a call in which `prctl(PR_SET_SECCOMP)` fails for no other reason than this rule. -/
def limited (W : Prog → Nat) (f : Prog) (t : Thread) (env : Env) : Env :=
  { env with nnpFault := none, seccompFault := if Fits W f t.filters then none else some ⟨11, by decide⟩ }

/-- In the history, whenever a thread gets another filter, the rule is kept. -/
def RuleKept (W : Prog → Nat) (s : System) : List Op → Prop
  | [] => True
  | op :: ops =>
    (∀ (k : Nat) (t t' : Thread) (f : Prog) (old : List Prog), s[k]? = some t → (s.step op)[k]? = some t' → t'.filters ≠ t.filters →
      t'.filters = f :: old → Fits W f old) ∧ RuleKept W (s.step op) ops

/-- The thread after `n` calls of `pledge_override` with the same arguments under the rule. -/
def repeated (W : Prog → Nat) (f : Prog) (b : Build) (env : Env) (ps : List Promise) (v : SeccompReturn) (t : Thread) : Nat → Thread
  | 0 => t
  | n + 1 =>
    let u := repeated W f b env ps v t n
    (pledgeOverride b (limited W f u env) u ps v).1

end Spec
