import Verif.Spec.Asm

/-!
# Specification: names in an assembly source

What it means to give the labels of a source other names, and to put several sources one behind the other so that none sees the
labels of another. Only the source text is mentioned: no line numbers, offsets or instruction words.
-/
set_option autoImplicit false

namespace Spec
open Bpfvm

/-- An operation with every label in it renamed. -/
def renameOp (f : String → String) : Operation → Operation
  | .Label l => .Label (f l)
  | .JumpTo l => .JumpTo (f l)
  | .Jump op k lt lf => .Jump op k (lt.map f) (lf.map f)
  | op => op

/-- A source with every label in it renamed. -/
def renameSrc (f : String → String) (x : List Operation) : List Operation := x.map (renameOp f)

/-- The labels a source mentions, as a definition or as the target of a jump. -/
def NamesLabel (x : List Operation) (l : String) : Prop := .Label l ∈ x ∨ ∃ op ∈ x, l ∈ refs op

/-- The outcome of the assembler with the label it complains about renamed. -/
def renameOut (f : String → String) : Res Error (List SockFilter) → Res Error (List SockFilter)
  | .err (.UnknownLabelReference l) => .err (.UnknownLabelReference (f l))
  | r => r

/-- The outcome of doing one thing and then another, and putting the results one behind the other: the first failure counts. -/
def thenAlso (r s : Res Error (List SockFilter)) : Res Error (List SockFilter) :=
  match r, s with
  | .ok p, .ok q => .ok (p ++ q)
  | .ok _, .err e => .err e
  | .ok _, .panic => .panic
  | .err e, _ => .err e
  | .panic, _ => .panic

/-- Sources one behind the other, the labels of the `i`-th renamed by `f i`. -/
def sideBySide (f : Nat → String → String) : Nat → List (List Operation) → List Operation
  | _, [] => []
  | i, x :: xs => renameSrc (f i) x ++ sideBySide f (i + 1) xs

end Spec
