import Verif.Spec.Asm

/-!
# Specification: what every instruction word means to the VM

The fields of the code are taken by division and remainder: class, size, mode or operation, and operand. The effects are those of
`Spec/Asm.lean`.
-/
set_option autoImplicit false

namespace Spec
open Bpfvm

/-- What an instruction word asks for. -/
inductive Meaning where
  /-- A load, a store or arithmetic. -/
  | does (op : Operation)
  /-- A half-word or byte load at index plus constant: the sum is computed before the size is refused. -/
  | indirect (e : Error)
  /-- Go on after as many instructions as the constant says. -/
  | goto
  /-- Compare the accumulator with the constant. -/
  | branch (op : JmpOp)
  /-- End with an operand. -/
  | ret (src : Src)
  /-- Not supported. -/
  | refused (e : Error)

/-- Arithmetic operations by number. -/
def aluOps : Nat → Option AluOp
  | 0 => some .ADD
  | 1 => some .SUB
  | 2 => some .MUL
  | 3 => some .DIV
  | 4 => some .OR
  | 5 => some .AND
  | 6 => some .LSH
  | 7 => some .RSH
  | 9 => some .MOD
  | 10 => some .XOR
  | _ => none

/-- The error for half-word and byte loads, and for the size that does not exist. -/
def sizeError (size : Nat) : Error := if size = 3 then .InvalidInstructionCode 0x18 else .UnsupportedDataOffset

/-- The meaning of a word. Bits 8 to 15 of the code never matter (except inside an error), nor does bit 3 of a jump, nor anything but the
class of a store, nor the size of a load that does not read the record. -/
def meaning (w : SockFilter) : Meaning :=
  let c := w.code.toNat
  match c % 8 with
  | 0 =>
    match c / 32 % 8 with
    | 0 => .does (.Load .IMM w.k)
    | 1 => if c / 8 % 4 = 0 then .does (.Load .ABS w.k) else .refused (sizeError (c / 8 % 4))
    | 2 => if c / 8 % 4 = 0 then .does (.Load .IND w.k) else .indirect (sizeError (c / 8 % 4))
    | 3 => .does (.Load .MEM w.k)
    | 4 => .does (.Load .LEN w.k)
    | _ => .refused (.InvalidInstructionCode w.code)
  | 1 =>
    match c / 32 % 8 with
    | 0 => .does (.LoadIdx .IMM w.k)
    | 3 => .does (.LoadIdx .MEM w.k)
    | 4 => .does (.LoadIdx .LEN w.k)
    | _ => .refused (.InvalidInstructionCode w.code)
  | 2 => .does (.Store .IMM w.k)
  | 3 => .does (.StoreIdx .IMM w.k)
  | 4 =>
    match aluOps (c / 16 % 16) with
    | some op => .does (.Alu op (if c / 8 % 2 = 0 then .Const else .Idx) w.k)
    | none => .refused (if c / 16 % 16 = 8 then .UnsupportedInstruction 0x80 else .UnknownInstruction 4)
  | 5 =>
    match c / 16 % 16 with
    | 0 => .goto
    | 1 => .branch .JEQ
    | 2 => .branch .JGT
    | 3 => .branch .JGE
    | 4 => .branch .JSET
    | _ => .refused (.UnknownInstruction 5)
  | 6 =>
    match c / 8 % 4 with
    | 0 => .ret .Const
    | 1 => .ret .Idx
    | 2 => .ret .Acc
    | _ => .refused (.InvalidInstructionCode w.code)
  | _ => .refused (.UnsupportedInstruction 7)

/-- `WordRun b data prog n s r`: from the word number `n` on and in state `s`, the program ends with result `r`. -/
inductive WordRun (b : Build) (data : RunData) (prog : List SockFilter) : Nat → St → Res Error (BitVec 32) → Prop
  | off (n : Nat) (s : St) : prog.length ≤ n → WordRun b data prog n s (.ok 0)
  | does (n : Nat) (w : SockFilter) (op : Operation) (s s' : St) (r : Res Error (BitVec 32)) : prog[n]? = some w →
      meaning w = .does op → effect b data s op = some s' → WordRun b data prog (n + 1) s' r → WordRun b data prog n s r
  | panics (n : Nat) (w : SockFilter) (op : Operation) (s : St) : prog[n]? = some w →
      meaning w = .does op → effect b data s op = none → WordRun b data prog n s .panic
  | overflow (n : Nat) (w : SockFilter) (e : Error) (s : St) : prog[n]? = some w →
      meaning w = .indirect e → arith b .ADD s.idx w.k = none → WordRun b data prog n s .panic
  | indirect (n : Nat) (w : SockFilter) (e : Error) (x : BitVec 32) (s : St) : prog[n]? = some w →
      meaning w = .indirect e → arith b .ADD s.idx w.k = some x → WordRun b data prog n s (.err e)
  | refused (n : Nat) (w : SockFilter) (e : Error) (s : St) : prog[n]? = some w →
      meaning w = .refused e → WordRun b data prog n s (.err e)
  | ret (n : Nat) (w : SockFilter) (src : Src) (s : St) : prog[n]? = some w → meaning w = .ret src →
      WordRun b data prog n s (.ok (s.src src w.k))
  | goto (n : Nat) (w : SockFilter) (s : St) (r : Res Error (BitVec 32)) : prog[n]? = some w → meaning w = .goto →
      WordRun b data prog (n + 1 + w.k.toNat) s r → WordRun b data prog n s r
  | taken (n : Nat) (w : SockFilter) (c : JmpOp) (s : St) (r : Res Error (BitVec 32)) : prog[n]? = some w → meaning w = .branch c →
      holds c s.acc w.k → WordRun b data prog (n + 1 + w.jt.toNat) s r → WordRun b data prog n s r
  | notTaken (n : Nat) (w : SockFilter) (c : JmpOp) (s : St) (r : Res Error (BitVec 32)) : prog[n]? = some w → meaning w = .branch c →
      ¬ holds c s.acc w.k → WordRun b data prog (n + 1 + w.jf.toNat) s r → WordRun b data prog n s r

end Spec
