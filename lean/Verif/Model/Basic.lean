/-!
# Basic vocabulary of the model: results, panics, build profile, errors
-/
set_option autoImplicit false

namespace Bpfvm

/-- Outcome of a Rust function returning `Result<α>`: `Ok`, `Err`, or a panic (which Rust does not return as data).
Models the `Result` alias at bpfvm/src/errors.rs:41 (and src/errors.rs:33) together with the panic path. -/
inductive Res (ε α : Type) where
  | ok (a : α)
  | err (e : ε)
  | panic
  deriving DecidableEq, Repr

namespace Res
variable {ε ε' α β : Type}

/-- The `?` operator: errors and panics end the computation. -/
@[simp] def bind (x : Res ε α) (f : α → Res ε β) : Res ε β :=
  match x with
  | ok a => f a
  | err e => err e
  | panic => panic

instance : Monad (Res ε) where
  pure := ok
  bind := bind

@[simp] theorem pure_eq (a : α) : (pure a : Res ε α) = ok a := rfl
@[simp] theorem bind_eq (x : Res ε α) (f : α → Res ε β) : (x >>= f) = x.bind f := rfl
@[simp] theorem map_ok (a : α) (f : α → β) : (f <$> (ok a : Res ε α)) = ok (f a) := rfl

/-- `?` with a `From` conversion of the error (`#[from]` at src/errors.rs:27-30). -/
def mapErr (f : ε → ε') : Res ε α → Res ε' α
  | ok a => ok a
  | err e => err (f e)
  | panic => panic

/-- Mapping a fallible function over a list and collecting, as Rust's
`iter.map(f).collect::<Result<Vec<_>>>()`: stops at the first error or panic. -/
def mapM (f : α → Res ε β) : List α → Res ε (List β)
  | [] => ok []
  | a :: as =>
    match f a with
    | ok b =>
      match mapM f as with
      | ok bs => ok (b :: bs)
      | err e => err e
      | panic => panic
    | err e => err e
    | panic => panic

end Res

/-- Cargo build profile, as far as it is observable: with overflow checks (debug) or without (release). -/
structure Build where
  overflowChecks : Bool
  deriving DecidableEq, Repr

/-- bpfvm/src/errors.rs:21-39. `DataConversionError` is never constructed by the crate and is left out. -/
inductive Error where
  | ProgramTooLong (n : Nat)
  | InvalidInstructionCode (c : BitVec 16)
  | UnsupportedInstruction (c : BitVec 16)
  | UnsupportedReturn (r : BitVec 32)
  | UnsupportedDataOffset
  | UnknownInstruction (c : BitVec 16)
  | UnknownLabelReference (l : String)
  deriving DecidableEq, Repr

/-- `usize` subtraction `a - b` (64-bit target): panics on underflow when overflow checks are on, otherwise wraps modulo
2^64. Used for the two subtractions at bpfvm/src/asm.rs:66. Operands are below 2^64. -/
def usizeSub (b : Build) (x y : Nat) : Res Error Nat :=
  if y ≤ x then .ok (x - y)
  else if b.overflowChecks then .panic
  else .ok (x + 2 ^ 64 - y)

/-- `u32` addition: bpfvm/src/vm.rs:124, 151 and bpfvm/src/seccomp.rs:121-122. -/
def addU32 (b : Build) (x y : BitVec 32) : Res Error (BitVec 32) :=
  if b.overflowChecks ∧ 2 ^ 32 ≤ x.toNat + y.toNat then .panic else .ok (x + y)

/-- `u32` multiplication: bpfvm/src/vm.rs:159 and bpfvm/src/seccomp.rs:121-122. -/
def mulU32 (b : Build) (x y : BitVec 32) : Res Error (BitVec 32) :=
  if b.overflowChecks ∧ 2 ^ 32 ≤ x.toNat * y.toNat then .panic else .ok (x * y)

end Bpfvm
