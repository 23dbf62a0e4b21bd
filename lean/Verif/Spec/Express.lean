import Verif.Model.Asm

/-!
# Specification: which instruction words can be written as assembly

Read from the numbers of bpfvm/src/bpf.rs: the code of a word is its class, plus the mode of a load or store, plus the operation and operand
of arithmetic.
-/
set_option autoImplicit false

namespace Spec
open Bpfvm

/-- Jumps with a constant: JA, JEQ, JGT, JGE, JSET. -/
def jumpCodes : List (BitVec 16) := [0x05, 0x15, 0x25, 0x35, 0x45]

/-- The other codes. First the loads of the accumulator and of the index register, the stores of both, each with the modes IMM, ABS, IND,
MEM, LEN; then arithmetic with the constant and with the index register; the word that XOR with the accumulator gives; the three returns. -/
def otherCodes : List (BitVec 16) :=
  [0x00, 0x20, 0x40, 0x60, 0x80, 0x01, 0x21, 0x41, 0x61, 0x81, 0x02, 0x22, 0x42, 0x62, 0x82, 0x03, 0x23, 0x43, 0x63, 0x83,
   0x04, 0x14, 0x24, 0x34, 0x44, 0x54, 0x64, 0x74, 0x94, 0xa4, 0x0c, 0x1c, 0x2c, 0x3c, 0x4c, 0x5c, 0x6c, 0x7c, 0x9c, 0xac,
   0xb4, 0x06, 0x0e, 0x16]

/-- A word with one of these codes that has jump distances only if it is a jump. -/
def Wordable (w : SockFilter) : Prop := w.code ∈ jumpCodes ∨ w.code ∈ otherCodes ∧ w.jt = 0 ∧ w.jf = 0

/-- The distance `j` of a jump at position `i` of a program of `n` words can be had: it is 0, or some place of the program, its end
included, is as far away, the distance taken modulo 256. With overflow checks the place must be behind the jump. -/
def Within (b : Build) (n i : Nat) (j : BitVec 8) : Prop :=
  j = 0 ∨ ∃ p, p ≤ n ∧ (b.overflowChecks = true → i < p) ∧ ((p : Int) - (i + 1)) % 256 = j.toNat

/-- Codes that the kernel takes in a filter and the assembler cannot write: the conditional jumps that compare with the index register,
NEG, TAX and TXA. -/
def unwritable : List (BitVec 16) := [0x1d, 0x2d, 0x3d, 0x4d, 0x84, 0x07, 0x87]

/-- Fields that mean nothing are zero: only conditional jumps have distances. -/
def NoStray (p : List SockFilter) : Prop := ∀ w ∈ p, w.jt = 0 ∧ w.jf = 0 ∨ w.code ∈ [0x15, 0x25, 0x35, 0x45, 0x1d, 0x2d, 0x3d, 0x4d]

end Spec
