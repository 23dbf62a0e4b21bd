import Verif.Model.Bpf

/-!
# bpfvm/src/asm.rs: the token assembler
-/
set_option autoImplicit false

namespace Bpfvm

/-- bpfvm/src/asm.rs:26-36. -/
inductive Operation where
  | Label (l : String)
  | Load (mode : Mode) (val : BitVec 32)
  | LoadIdx (mode : Mode) (val : BitVec 32)
  | Store (mode : Mode) (val : BitVec 32)
  | StoreIdx (mode : Mode) (val : BitVec 32)
  | Alu (op : AluOp) (src : Src) (val : BitVec 32)
  | Return (src : Src) (val : BitVec 32)
  | JumpTo (l : String)
  | Jump (op : JmpOp) (cmp : BitVec 32) (ltrue lfalse : Option String)
  deriving DecidableEq, Repr

/-- `matches!(op, Label(_))`, bpfvm/src/asm.rs:104. -/
def Operation.isLabel : Operation → Bool
  | .Label _ => true
  | _ => false

/-- The `HashMap<&str, usize>` of bpfvm/src/asm.rs:45. `insert` is cons, `get` takes the first match, so a later insert
overrides an earlier one as in a hash map. -/
abbrev Labels := List (String × Nat)

/-- `HashMap::get`, bpfvm/src/asm.rs:64. -/
def Labels.get (labels : Labels) (l : String) : Option Nat :=
  match labels with
  | [] => none
  | (k, v) :: rest => if k = l then some v else Labels.get rest l

/-- The loop of `map_labels`, bpfvm/src/asm.rs:46-55: `line` counts the non-label operations seen so far. -/
def mapLabelsFrom (line : Nat) (labels : Labels) : List Operation → Labels
  | [] => labels
  | .Label l :: rest => mapLabelsFrom line ((l, line) :: labels) rest
  | _ :: rest => mapLabelsFrom (line + 1) labels rest

/-- `map_labels`, bpfvm/src/asm.rs:42-58. It never fails, so the `Result` is dropped. -/
def mapLabels (prog : List Operation) : Labels := mapLabelsFrom 0 [] prog

/-- `jmp_calc`, bpfvm/src/asm.rs:60-71. `*off - curr - 1` is two `usize` subtractions, left to right. -/
def jmpCalc (b : Build) (labels : Labels) (label : Option String) (curr : Nat) : Res Error Nat :=
  match label with
  | some l =>
    match labels.get l with
    | some off => (usizeSub b off curr).bind fun d => usizeSub b d 1
    | none => .err (.UnknownLabelReference l)
  | none => .ok 0

/-- `to_sock_filter`, bpfvm/src/asm.rs:73-94. `targetline as u32` and `lt as u8` truncate. -/
def toSockFilter (b : Build) (linenum : Nat) (op : Operation) (labels : Labels) : Res Error SockFilter :=
  match op with
  | .JumpTo l =>
    (jmpCalc b labels (some l) linenum).bind fun target =>
      .ok (bpf_jmp .JA (BitVec.ofNat 32 target) 0 0)
  | .Jump op cmp ltrue lfalse =>
    (jmpCalc b labels ltrue linenum).bind fun lt =>
    (jmpCalc b labels lfalse linenum).bind fun lf =>
      .ok (bpf_jmp op cmp (BitVec.ofNat 8 lt) (BitVec.ofNat 8 lf))
  | .Load mode val => .ok (bpf_ld mode val)
  | .LoadIdx mode val => .ok (bpf_ldx mode val)
  | .Store mode val => .ok (bpf_st mode val)
  | .StoreIdx mode val => .ok (bpf_stx mode val)
  | .Alu op src val => .ok (bpf_alu op src val)
  | .Return src val => .ok (bpf_ret src val)
  | .Label l => .err (.UnknownLabelReference l)

/-- `.enumerate().map(..).collect()` of bpfvm/src/asm.rs:105-107, starting at line `n`; stops at the first error/panic. -/
def emit (b : Build) (labels : Labels) (n : Nat) : List Operation → Res Error (List SockFilter)
  | [] => .ok []
  | op :: rest =>
    (toSockFilter b n op labels).bind fun sf =>
    (emit b labels (n + 1) rest).bind fun sfs =>
      .ok (sf :: sfs)

/-- `compile`, bpfvm/src/asm.rs:97-110. -/
def compile (b : Build) (prog : List Operation) : Res Error (List SockFilter) :=
  emit b (mapLabels prog) 0 (prog.filter fun op => !op.isLabel)

end Bpfvm
