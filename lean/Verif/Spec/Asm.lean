import Verif.Model.Asm
import Verif.Spec.Vm

/-!
# Specification: what an assembly program means, read at label level

Written over the source: the state of a run is the rest of the source still to be read, not an instruction counter, and a jump
continues with what follows its label. Nothing here mentions instruction words, line numbers or offsets.
-/
set_option autoImplicit false

namespace Spec
open Bpfvm

/-- `rest` is what follows the last definition of label `l` in `prog`. -/
def After (prog : List Operation) (l : String) (rest : List Operation) : Prop :=
  (∃ pre, prog = pre ++ .Label l :: rest) ∧ .Label l ∉ rest

/-- Number of instructions in a piece of source. -/
def instrs (prog : List Operation) : Nat := (prog.filter fun op => !op.isLabel).length

/-- The labels an operation refers to, in the order of its arguments. -/
def refs : Operation → List String
  | .JumpTo l => [l]
  | .Jump _ _ lt lf => lt.toList ++ lf.toList
  | _ => []

/-- All label references of a source in order, each with the source that follows the referring operation. -/
def allRefs : List Operation → List (String × List Operation)
  | [] => []
  | op :: rest => (refs op).map (fun l => (l, rest)) ++ allRefs rest

/-- The reference names a label that is nowhere defined. -/
def Undefined (prog : List Operation) (r : String × List Operation) : Prop := .Label r.1 ∉ prog

/-- The reference names a label that is defined, but not below. -/
def Backward (prog : List Operation) (r : String × List Operation) : Prop := .Label r.1 ∈ prog ∧ .Label r.1 ∉ r.2

/-- Registers and memory at source level. -/
structure St where
  acc : BitVec 32
  idx : BitVec 32
  mem : Fin 16 → BitVec 32

/-- All zero. -/
def St.init : St := ⟨0, 0, fun _ => 0⟩

/-- The 32-bit word of the data that contains byte `off`, if it is there. -/
def wordAt (data : RunData) (off : Nat) : Option (BitVec 32) := data[off / 4]?

/-- An operand. -/
def St.src (s : St) : Src → BitVec 32 → BitVec 32
  | .Const, v => v
  | .Idx, _ => s.idx
  | .Acc, _ => s.acc

/-- Result of an arithmetic operation; `none`: panic (division by zero, or overflow in a checked build). -/
def arith (b : Build) (op : AluOp) (a s : BitVec 32) : Option (BitVec 32) :=
  if aluByZero op s.toNat ∨ b.overflowChecks ∧ aluOverflows op a.toNat s.toNat then none
  else some (BitVec.ofInt 32 (aluInt op a.toNat s.toNat))

/-- The value a load with this mode gives; `none`: panic (outside the data or the memory, or overflow of the offset in a checked
build). -/
def loaded (b : Build) (data : RunData) (s : St) (mode : Mode) (v : BitVec 32) : Option (BitVec 32) :=
  match mode with
  | .IMM => some v
  | .ABS => wordAt data v.toNat
  | .IND => (arith b .ADD s.idx v).bind fun off => wordAt data off.toNat
  | .MEM => if h : v.toNat < 16 then some (s.mem ⟨v.toNat, h⟩) else none
  | .LEN => some (BitVec.ofNat 32 data.length)

/-- The memory with one cell changed; `none`: panic (no such cell). -/
def stored (s : St) (v x : BitVec 32) : Option St :=
  if v.toNat < 16 then some { s with mem := fun j => if j.val = v.toNat then x else s.mem j } else none

/-- Effect of an operation that is neither a label nor a jump nor a return. -/
def effect (b : Build) (data : RunData) (s : St) : Operation → Option St
  | .Load mode v => (loaded b data s mode v).map fun x => { s with acc := x }
  | .LoadIdx mode v => (loaded b data s mode v).map fun x => { s with idx := x }
  | .Store _ v => stored s v s.acc
  | .StoreIdx _ v => stored s v s.idx
  | .Alu op src v => (arith b op s.acc (s.src src v)).map fun x => { s with acc := x }
  | _ => none

/-- Is this an operation of that kind? -/
def isPlain : Operation → Bool
  | .Load .. | .LoadIdx .. | .Store .. | .StoreIdx .. | .Alu .. => true
  | _ => false

/-- The condition of a jump. -/
def holds (op : JmpOp) (a k : BitVec 32) : Prop :=
  match op with
  | .JA => True
  | .JEQ => a.toNat = k.toNat
  | .JGT => a.toNat > k.toNat
  | .JGE => a.toNat ≥ k.toNat
  | .JSET => ∃ j : Nat, a.getLsbD j = true ∧ k.getLsbD j = true

/-- Where an optional label leads: no label means the next operation. -/
def Goes (prog rest : List Operation) : Option String → List Operation → Prop
  | none, t => t = rest
  | some l, t => After prog l t

/-- `SrcRun b data prog rest s r`: reading `prog` from `rest` on in state `s` ends with result `r`. Running off the end gives 0. -/
inductive SrcRun (b : Build) (data : RunData) (prog : List Operation) : List Operation → St → Res Error (BitVec 32) → Prop
  | off (s : St) : SrcRun b data prog [] s (.ok 0)
  | label (l : String) (rest : List Operation) (s : St) (r : Res Error (BitVec 32)) :
      SrcRun b data prog rest s r → SrcRun b data prog (.Label l :: rest) s r
  | plain (op : Operation) (rest : List Operation) (s s' : St) (r : Res Error (BitVec 32)) : isPlain op = true →
      effect b data s op = some s' → SrcRun b data prog rest s' r → SrcRun b data prog (op :: rest) s r
  | panics (op : Operation) (rest : List Operation) (s : St) : isPlain op = true → effect b data s op = none →
      SrcRun b data prog (op :: rest) s .panic
  | ret (src : Src) (v : BitVec 32) (rest : List Operation) (s : St) :
      SrcRun b data prog (.Return src v :: rest) s (.ok (s.src src v))
  | jumpTo (l : String) (rest target : List Operation) (s : St) (r : Res Error (BitVec 32)) : After prog l target →
      SrcRun b data prog target s r → SrcRun b data prog (.JumpTo l :: rest) s r
  | taken (op : JmpOp) (k : BitVec 32) (lt lf : Option String) (rest target : List Operation) (s : St)
      (r : Res Error (BitVec 32)) : holds op s.acc k → Goes prog rest lt target → SrcRun b data prog target s r →
      SrcRun b data prog (.Jump op k lt lf :: rest) s r
  | notTaken (op : JmpOp) (k : BitVec 32) (lt lf : Option String) (rest target : List Operation) (s : St)
      (r : Res Error (BitVec 32)) : ¬ holds op s.acc k → Goes prog rest lf target → SrcRun b data prog target s r →
      SrcRun b data prog (.Jump op k lt lf :: rest) s r

/-! ## Well-formed programs -/

/-- Label `l` is defined below (in `rest`), its last definition at most `far` instructions further down. -/
def Below (far : Nat) (rest : List Operation) (l : String) : Prop :=
  ∃ skip target, rest = skip ++ .Label l :: target ∧ .Label l ∉ target ∧ instrs skip ≤ far

/-- An operation followed by `rest` that the assembler and the VM handle: labels are defined below, for conditional jumps within
255 instructions; no accumulator operand in arithmetic; no record or indirect loads into the index register; the unconditional
jump is written `JumpTo`. -/
def OpOK (rest : List Operation) : Operation → Prop
  | .JumpTo l => ∃ far, Below far rest l
  | .Jump op _ lt lf => op ≠ .JA ∧ (∀ l ∈ lt, Below 255 rest l) ∧ ∀ l ∈ lf, Below 255 rest l
  | .Alu _ src _ => src ≠ .Acc
  | .LoadIdx mode _ => mode ≠ .ABS ∧ mode ≠ .IND
  | _ => True

/-- Every operation is fine where it stands. -/
def WellFormed (prog : List Operation) : Prop := ∀ pre op rest, prog = pre ++ op :: rest → OpOK rest op

end Spec
