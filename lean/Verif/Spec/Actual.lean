import Verif.Spec.Asm

/-!
# Specification: what an assembly program really does, also where this is not what its text says

Only the size of the program is restricted (the VM takes at most 65535 instructions). Differences to the label-level reading of
`Spec/Asm.lean`: arithmetic on the accumulator, record loads into the index register, `JA` written as a conditional jump, and the
distance of a jump, which is reduced modulo a power of two. Nothing here mentions instruction words.
-/
set_option autoImplicit false

namespace Spec
open Bpfvm

/-- The operation that "with the accumulator" turns into, its operand being the constant; `none`: no operation at all. -/
def accAs : AluOp → Option AluOp
  | .ADD | .SUB => some .SUB
  | .MUL | .DIV => some .DIV
  | .OR | .AND => some .AND
  | .LSH | .RSH => some .RSH
  | .MOD => some .MOD
  | .XOR => none

/-- What an operation that is neither a label nor a jump nor a return really does. -/
def reallyDoes (b : Build) (data : RunData) (s : St) : Operation → Res Error St
  | .Alu op .Acc v =>
    match accAs op with
    | some op' => match effect b data s (.Alu op' .Const v) with
      | some s' => .ok s'
      | none => .panic
    | none => .err (.UnknownInstruction 4)
  | .LoadIdx .ABS _ => .err (.InvalidInstructionCode 0x21)
  | .LoadIdx .IND _ => .err (.InvalidInstructionCode 0x41)
  | op => match effect b data s op with
    | some s' => .ok s'
    | none => .panic

/-- A jump by the instruction number `n` to an optional label goes to the instruction number `m`: without a label the next one; with a
label, the true distance from the next one to what follows the last definition of the label is reduced modulo `2 ^ w`. -/
def JumpsTo (prog : List Operation) (w n : Nat) (lab : Option String) (m : Nat) : Prop :=
  match lab with
  | none => m = n + 1
  | some l => ∃ before after, prog = before ++ .Label l :: after ∧ .Label l ∉ after ∧
      (m : Int) = n + 1 + ((instrs before : Int) - (n + 1)) % (2 ^ w : Nat)

/-- `Actual b data prog n s r`: from the instruction number `n` on and in state `s`, `prog` ends with result `r`. -/
inductive Actual (b : Build) (data : RunData) (prog : List Operation) : Nat → St → Res Error (BitVec 32) → Prop
  | off (n : Nat) (s : St) : instrs prog ≤ n → Actual b data prog n s (.ok 0)
  | plain (pre rest : List Operation) (op : Operation) (s s' : St) (r : Res Error (BitVec 32)) : prog = pre ++ op :: rest →
      isPlain op = true → reallyDoes b data s op = .ok s' → Actual b data prog (instrs pre + 1) s' r →
      Actual b data prog (instrs pre) s r
  | fails (pre rest : List Operation) (op : Operation) (s : St) (e : Error) : prog = pre ++ op :: rest →
      isPlain op = true → reallyDoes b data s op = .err e → Actual b data prog (instrs pre) s (.err e)
  | panics (pre rest : List Operation) (op : Operation) (s : St) : prog = pre ++ op :: rest →
      isPlain op = true → reallyDoes b data s op = .panic → Actual b data prog (instrs pre) s .panic
  | ret (pre rest : List Operation) (src : Src) (v : BitVec 32) (s : St) : prog = pre ++ .Return src v :: rest →
      Actual b data prog (instrs pre) s (.ok (s.src src v))
  | jumpTo (pre rest : List Operation) (l : String) (m : Nat) (s : St) (r : Res Error (BitVec 32)) : prog = pre ++ .JumpTo l :: rest →
      JumpsTo prog 32 (instrs pre) (some l) m → Actual b data prog m s r → Actual b data prog (instrs pre) s r
  | ja (pre rest : List Operation) (k : BitVec 32) (lt lf : Option String) (s : St) (r : Res Error (BitVec 32)) :
      prog = pre ++ .Jump .JA k lt lf :: rest → Actual b data prog (instrs pre + 1 + k.toNat) s r → Actual b data prog (instrs pre) s r
  | taken (pre rest : List Operation) (c : JmpOp) (k : BitVec 32) (lt lf : Option String) (m : Nat) (s : St)
      (r : Res Error (BitVec 32)) : prog = pre ++ .Jump c k lt lf :: rest → c ≠ .JA → holds c s.acc k →
      JumpsTo prog 8 (instrs pre) lt m → Actual b data prog m s r → Actual b data prog (instrs pre) s r
  | notTaken (pre rest : List Operation) (c : JmpOp) (k : BitVec 32) (lt lf : Option String) (m : Nat) (s : St)
      (r : Res Error (BitVec 32)) : prog = pre ++ .Jump c k lt lf :: rest → c ≠ .JA → ¬ holds c s.acc k →
      JumpsTo prog 8 (instrs pre) lf m → Actual b data prog m s r → Actual b data prog (instrs pre) s r

end Spec
