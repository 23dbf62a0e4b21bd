import Verif.Env.Kernel

/-!
# The kernel's cache of allowed calls

Not code of /repo. Since version 5.11 Linux does not run the filters for a call if it knows from the numbers of the call and of the
architecture alone that every filter allows it: kernel/seccomp.c, `seccomp_is_const_allow`, `seccomp_cache_prepare_bitmap`,
`seccomp_cache_check_allow`. `Env/Kernel.lean` leaves this out; C115 justifies that.
-/
set_option autoImplicit false

namespace Kernel
open Bpfvm

/-- `seccomp_is_const_allow`: the filter is run with nothing known but the two numbers, and given up at the first instruction that looks
at something else. `n` instructions are skipped first (the kernel has a program counter), `a` is the accumulator. -/
def constAllow (nr arch : BitVec 32) : Prog → Nat → BitVec 32 → Bool
  | [], _, _ => false
  | _ :: rest, n + 1, a => constAllow nr arch rest n a
  | i :: rest, 0, a =>
    let jump (c : Bool) := constAllow nr arch rest (if c then i.jt.toNat else i.jf.toNat) a
    if i.code = 0x20#16 then
      if i.k = 0#32 then constAllow nr arch rest 0 nr
      else if i.k = 4#32 then constAllow nr arch rest 0 arch
      else false
    else if i.code = 0x06#16 then i.k = 0x7fff0000#32
    else if i.code = 0x05#16 then constAllow nr arch rest i.k.toNat a
    else if i.code = 0x15#16 then jump (a = i.k)
    else if i.code = 0x35#16 then jump (i.k ≤ a)
    else if i.code = 0x25#16 then jump (i.k < a)
    else if i.code = 0x45#16 then jump (a &&& i.k ≠ 0)
    else if i.code = 0x54#16 then constAllow nr arch rest 0 (a &&& i.k)
    else false

/-- `seccomp_cache_prepare_bitmap`: the bit of a call in the bitmap of the newest filter of a stack. It is made when the filter is
installed, from the bitmap of the filter below it. -/
def bitmap (nr arch : BitVec 32) : List Prog → Bool
  | [] => true
  | p :: below => bitmap nr arch below && constAllow nr arch p 0 0

/-- `seccomp_cache_check_allow`. `sizes`: for how many system calls of an architecture there are bits (none for most architectures). -/
def cached (sizes : BitVec 32 → Nat) (stack : List Prog) (d : SeccompData) : Bool :=
  d.nr.toNat < sizes d.arch && !stack.isEmpty && bitmap d.nr d.arch stack

/-- `seccomp_run_filters` and `__seccomp_filter` with the cache. -/
def enterCached (sizes : BitVec 32 → Nat) (t : Thread) (d : SeccompData) : Outcome :=
  if cached sizes t.filters d then .executed else outcome (runFilters t.filters d)

end Kernel
