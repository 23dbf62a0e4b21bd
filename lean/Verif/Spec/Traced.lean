import Verif.Model.Traced
import Verif.Spec.History

/-!
# Specification: pledges of a traced thread
-/
set_option autoImplicit false

namespace Spec
open Pledge Bpfvm Kernel

/-- A violation that no tracer can overrule. -/
def Firm : SeccompReturn → Prop
  | .KillProcess | .KillThread | .Trap => True
  | .Errno e => e.toNat < 2 ^ 16
  | _ => False

/-- A violation that asks the tracer, with this message. -/
def AsksTracer (v : SeccompReturn) (m : BitVec 16) : Prop := ∃ e, v = .Trace e ∧ e.toNat < 2 ^ 16 ∧ m = e.setWidth 16

/-- A violation that does not stop the call. -/
def Loose (v : SeccompReturn) : Prop := v = .Log ∨ v = .Allow

/-- Pledge `p` permits the call, or forbids it with a violation that does not stop it. -/
def Passes (p : Past) (d : SeccompData) : Prop := Allows p.ids p.ps d ∨ Denies p.ids p.ps d ∧ Loose p.v

/-- Pledge `p` forbids the call, and says so to the tracer. -/
def Tells (p : Past) (d : SeccompData) (m : BitVec 16) : Prop := Denies p.ids p.ps d ∧ AsksTracer p.v m

/-- The id as the library gets it. -/
def wished (real : BitVec 32) : Wish → BitVec 32
  | .pass => real
  | .skip x => BitVec.ofInt 32 x

/-- The ids as the library gets them, if it asks. -/
def wishedIds (w : Fin 4 → Wish) (t : Thread) (ps : List Promise) : Ids :=
  if .StdIO ∈ ps then ⟨wished t.pid (w 0), wished t.tid (w 1)⟩ else ⟨t.pid, t.tid⟩

end Spec
