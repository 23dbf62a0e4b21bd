import Verif.Spec.Asm

/-!
# Specification: which assembly programs the kernel takes as a filter

Written over the source, as in `Spec.Asm`: no instruction words, positions or offsets.
-/
set_option autoImplicit false

namespace Spec
open Bpfvm

/-- What the kernel demands of a single operation: aligned word loads inside the 64-byte record; sixteen memory cells; stores written
with the mode of value 0; no MOD; no division by the constant 0, no shift by a constant of 32 or more; no return of the index register. -/
def OpTaken : Operation → Prop
  | .Load .ABS v => v.toNat < 64 ∧ v.toNat % 4 = 0
  | .Load .MEM v | .LoadIdx .MEM v => v.toNat < 16
  | .Load .IND _ | .LoadIdx .IND _ | .LoadIdx .ABS _ => False
  | .Store mode v | .StoreIdx mode v => mode = .IMM ∧ v.toNat < 16
  | .Alu .MOD _ _ => False
  | .Alu .DIV .Const v => v ≠ 0
  | .Alu .LSH .Const v | .Alu .RSH .Const v => v.toNat < 32
  | .Return src _ => src ≠ .Idx
  | _ => True

/-- The memory cell an operation stores to. -/
def storesTo : Operation → Option Nat
  | .Store _ v | .StoreIdx _ v => some v.toNat
  | _ => none

/-- The memory cell an operation loads from. -/
def loadsFrom : Operation → Option Nat
  | .Load .MEM v | .LoadIdx .MEM v => some v.toNat
  | _ => none

/-- Is this a jump? -/
def isJump : Operation → Bool
  | .JumpTo _ | .Jump .. => true
  | _ => false

/-- `Unset prog k rest`: some path from the start of `prog` arrives at `rest` without a store to cell `k`. The path may take either
branch of a conditional jump, and (as the kernel does not look at it) may go on behind a return. -/
inductive Unset (prog : List Operation) (k : Nat) : List Operation → Prop
  | start : Unset prog k prog
  | next (op : Operation) (rest : List Operation) : Unset prog k (op :: rest) → isJump op = false → storesTo op ≠ some k →
      Unset prog k rest
  | jumpTo (l : String) (rest target : List Operation) : Unset prog k (.JumpTo l :: rest) → After prog l target →
      Unset prog k target
  | jump (op : JmpOp) (v : BitVec 32) (lt lf : Option String) (rest target : List Operation) :
      Unset prog k (.Jump op v lt lf :: rest) → Goes prog rest lt target ∨ Goes prog rest lf target → Unset prog k target

/-- The kernel takes the program as a filter. -/
structure Taken (prog : List Operation) : Prop where
  /-- Between 1 and 4096 instructions. -/
  size : 1 ≤ instrs prog ∧ instrs prog ≤ 4096
  /-- Every operation is fine for itself. -/
  ops : ∀ op ∈ prog, OpTaken op
  /-- The last instruction is a return. -/
  ends : ∃ pre src v labels, prog = pre ++ .Return src v :: labels ∧ instrs labels = 0
  /-- Every label that a jump names is followed by an instruction. -/
  targets : ∀ op ∈ prog, ∀ l ∈ refs op, ∀ rest, After prog l rest → 1 ≤ instrs rest
  /-- No path reaches a load of a memory cell without having stored it. -/
  mem : ∀ op rest k, loadsFrom op = some k → ¬ Unset prog k (op :: rest)

end Spec
