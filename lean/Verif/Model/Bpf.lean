import Verif.Libc
import Verif.Model.Basic

/-!
# bpfvm/src/bpf.rs: instruction words and their constructors
-/
set_option autoImplicit false

namespace Bpfvm
open Libc

/-- `libc::sock_filter` (a `repr(C)` struct of the `libc` crate): one classic BPF instruction. -/
structure SockFilter where
  code : BitVec 16
  jt : BitVec 8
  jf : BitVec 8
  k : BitVec 32
  deriving DecidableEq, Repr

/-- bpfvm/src/bpf.rs:20. -/
def BPF_A : BitVec 32 := 0x10#32

/-- bpfvm/src/bpf.rs:25-29. Only `U32` is used by the constructors. -/
inductive WordSize where
  | U32 | U16 | U8
  deriving DecidableEq, Repr

/-- `as u32` on `WordSize` (`repr(u32)`), bpfvm/src/bpf.rs:26-28. -/
def WordSize.toU32 : WordSize → BitVec 32
  | .U32 => BPF_W
  | .U16 => BPF_H
  | .U8 => BPF_B

/-- bpfvm/src/bpf.rs:33-40. -/
inductive Src where
  | Const | Idx | Acc
  deriving DecidableEq, Repr

/-- `as u32` on `Src`, bpfvm/src/bpf.rs:35-39. -/
def Src.toU32 : Src → BitVec 32
  | .Const => BPF_K
  | .Idx => BPF_X
  | .Acc => BPF_A

/-- bpfvm/src/bpf.rs:44-50. -/
inductive Mode where
  | IMM | ABS | IND | MEM | LEN
  deriving DecidableEq, Repr

/-- `as u32` on `Mode`, bpfvm/src/bpf.rs:45-49. -/
def Mode.toU32 : Mode → BitVec 32
  | .IMM => BPF_IMM
  | .ABS => BPF_ABS
  | .IND => BPF_IND
  | .MEM => BPF_MEM
  | .LEN => BPF_LEN

/-- bpfvm/src/bpf.rs:54-65. -/
inductive AluOp where
  | ADD | SUB | MUL | DIV | OR | AND | LSH | RSH | MOD | XOR
  deriving DecidableEq, Repr

/-- `as u32` on `AluOp`, bpfvm/src/bpf.rs:55-64. -/
def AluOp.toU32 : AluOp → BitVec 32
  | .ADD => BPF_ADD
  | .SUB => BPF_SUB
  | .MUL => BPF_MUL
  | .DIV => BPF_DIV
  | .OR => BPF_OR
  | .AND => BPF_AND
  | .LSH => BPF_LSH
  | .RSH => BPF_RSH
  | .MOD => BPF_MOD
  | .XOR => BPF_XOR

/-- bpfvm/src/bpf.rs:69-75. -/
inductive JmpOp where
  | JA | JEQ | JGT | JGE | JSET
  deriving DecidableEq, Repr

/-- `as u32` on `JmpOp`, bpfvm/src/bpf.rs:70-74. -/
def JmpOp.toU32 : JmpOp → BitVec 32
  | .JA => BPF_JA
  | .JEQ => BPF_JEQ
  | .JGT => BPF_JGT
  | .JGE => BPF_JGE
  | .JSET => BPF_JSET

/-- bpfvm/src/bpf.rs:79-87. -/
inductive Instr where
  | LD | LDX | ST | STX | ALU | JMP | RET
  deriving DecidableEq, Repr

/-- `as u32` on `Instr`, bpfvm/src/bpf.rs:80-86. -/
def Instr.toU32 : Instr → BitVec 32
  | .LD => BPF_LD
  | .LDX => BPF_LDX
  | .ST => BPF_ST
  | .STX => BPF_STX
  | .ALU => BPF_ALU
  | .JMP => BPF_JMP
  | .RET => BPF_RET

/-- bpfvm/src/bpf.rs:90-97; `code as u16` truncates. -/
def bpf_stmt (code val : BitVec 32) : SockFilter :=
  { code := code.setWidth 16, jt := 0, jf := 0, k := val }

/-- bpfvm/src/bpf.rs:99-101. -/
def bpf_stmt_w (code val : BitVec 32) : SockFilter :=
  bpf_stmt (code ||| WordSize.U32.toU32) val

/-- bpfvm/src/bpf.rs:103-105. -/
def bpf_ld (mode : Mode) (val : BitVec 32) : SockFilter :=
  bpf_stmt_w (Instr.LD.toU32 ||| mode.toU32) val

/-- bpfvm/src/bpf.rs:107-109. -/
def bpf_ldx (mode : Mode) (val : BitVec 32) : SockFilter :=
  bpf_stmt_w (Instr.LDX.toU32 ||| mode.toU32) val

/-- bpfvm/src/bpf.rs:111-113. -/
def bpf_st (mode : Mode) (val : BitVec 32) : SockFilter :=
  bpf_stmt_w (Instr.ST.toU32 ||| mode.toU32) val

/-- bpfvm/src/bpf.rs:115-117. -/
def bpf_stx (mode : Mode) (val : BitVec 32) : SockFilter :=
  bpf_stmt_w (Instr.STX.toU32 ||| mode.toU32) val

/-- bpfvm/src/bpf.rs:119-121. -/
def bpf_alu (op : AluOp) (src : Src) (val : BitVec 32) : SockFilter :=
  bpf_stmt_w (Instr.ALU.toU32 ||| op.toU32 ||| src.toU32) val

/-- bpfvm/src/bpf.rs:123-125. -/
def bpf_ret (retval : Src) (val : BitVec 32) : SockFilter :=
  bpf_stmt_w (Instr.RET.toU32 ||| retval.toU32) val

/-- bpfvm/src/bpf.rs:127-135. -/
def bpf_jmp (op : JmpOp) (k : BitVec 32) (jt jf : BitVec 8) : SockFilter :=
  { code := (Instr.JMP.toU32 ||| op.toU32).setWidth 16, jt := jt, jf := jf, k := k }

end Bpfvm
