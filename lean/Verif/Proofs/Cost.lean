import Verif.Proofs.KernelEv
import Verif.Proofs.Check
import Verif.Spec.Cost

/-!
# Counting the instructions that the kernel executes
-/
set_option autoImplicit false

namespace Bpfvm

/-- The number of instructions that `ev` executes. -/
def evC (w : RunData) : List SockFilter → Nat → BitVec 32 → Nat
  | [], _, _ => 0
  | _ :: rest, n + 1, a => evC w rest n a
  | i :: rest, 0, a =>
    1 + if i.code = 0x20#16 then
      match w[i.k.toNat / 4]? with
      | some v => evC w rest 0 v
      | none => 0
    else if i.code = 0x15#16 then evC w rest (if a = i.k then i.jt.toNat else i.jf.toNat) a
    else if i.code = 0x25#16 then evC w rest (if i.k < a then i.jt.toNat else i.jf.toNat) a
    else if i.code = 0x05#16 then evC w rest i.k.toNat a
    else if i.code = 0x54#16 then evC w rest 0 (a &&& i.k)
    else 0

/-- An upper bound for the ways through a piece of code that leave it at its end (`falls`) or return. -/
def longest (falls : Bool) : List SockFilter → Nat → Nat
  | [], _ => 0
  | _ :: rest, n + 1 => longest falls rest n
  | i :: rest, 0 =>
    if i.code = 0x20#16 then 1 + longest falls rest 0
    else if i.code = 0x15#16 then 1 + max (longest falls rest i.jt.toNat) (longest falls rest i.jf.toNat)
    else if i.code = 0x25#16 then 1 + max (longest falls rest i.jt.toNat) (longest falls rest i.jf.toNat)
    else if i.code = 0x05#16 then 1 + longest falls rest i.k.toNat
    else if i.code = 0x54#16 then 1 + longest falls rest 0
    else if falls then 0 else 1

theorem evC_le (w : RunData) (falls : Bool) (l : List SockFilter) (n : Nat) (a : BitVec 32) (h : ev w l n a ≠ .stuck)
    (hf : falls = true → ∀ v, ev w l n a ≠ .ret v) : evC w l n a ≤ longest falls l n := by
  induction l generalizing n a with
  | nil => simp [evC]
  | cons i rest ih =>
    cases n with
    | succ n => exact ih n a h hf
    | zero =>
      simp only [evC, longest, ev] at *
      by_cases h1 : i.code = 0x20#16
      · simp only [h1, if_true] at h hf ⊢
        cases hv : w[i.k.toNat / 4]? with
        | none => simp [hv] at h
        | some v => simp only [hv] at h hf ⊢; exact Nat.add_le_add_left (ih _ _ h hf) 1
      simp only [h1, if_false] at h hf ⊢
      by_cases h2 : i.code = 0x15#16
      · simp only [h2, if_true] at h hf ⊢
        refine Nat.add_le_add_left (Nat.le_trans (ih _ _ h hf) ?_) 1
        split
        · exact Nat.le_max_left _ _
        · exact Nat.le_max_right _ _
      simp only [h2, if_false] at h hf ⊢
      by_cases h3 : i.code = 0x25#16
      · simp only [h3, if_true] at h hf ⊢
        refine Nat.add_le_add_left (Nat.le_trans (ih _ _ h hf) ?_) 1
        split
        · exact Nat.le_max_left _ _
        · exact Nat.le_max_right _ _
      simp only [h3, if_false] at h hf ⊢
      by_cases h4 : i.code = 0x05#16
      · simp only [h4, if_true] at h hf ⊢; exact Nat.add_le_add_left (ih _ _ h hf) 1
      simp only [h4, if_false] at h hf ⊢
      by_cases h5 : i.code = 0x54#16
      · simp only [h5, if_true] at h hf ⊢; exact Nat.add_le_add_left (ih _ _ h hf) 1
      simp only [h5, if_false] at h hf ⊢
      by_cases h6 : i.code = 0x06#16
      · simp only [h6, if_true] at hf
        cases falls with
        | true => exact absurd rfl (hf rfl i.k)
        | false => simp
      · simp [h6] at h

theorem evC_append (w : RunData) (f g : List SockFilter) (n : Nat) (a : BitVec 32) (h : ev w f n a ≠ .stuck) :
    evC w (f ++ g) n a = evC w f n a + match ev w f n a with
      | .fall a' => evC w g 0 a'
      | _ => 0 := by
  induction f generalizing n a with
  | nil =>
    cases n with
    | zero => simp [ev, evC]
    | succ n => simp [ev] at h
  | cons i rest ih =>
    cases n with
    | succ n => exact ih n a h
    | zero =>
      simp only [List.cons_append, ev, evC] at *
      rw [Nat.add_assoc]
      congr 1
      by_cases h1 : i.code = 0x20#16
      · simp only [h1, if_true] at h ⊢
        cases hv : w[i.k.toNat / 4]? with
        | none => simp [hv] at h
        | some v => simp only [hv] at h ⊢; exact ih _ _ h
      simp only [h1, if_false] at h ⊢
      by_cases h2 : i.code = 0x15#16
      · simp only [h2, if_true] at h ⊢; exact ih _ _ h
      simp only [h2, if_false] at h ⊢
      by_cases h3 : i.code = 0x25#16
      · simp only [h3, if_true] at h ⊢; exact ih _ _ h
      simp only [h3, if_false] at h ⊢
      by_cases h4 : i.code = 0x05#16
      · simp only [h4, if_true] at h ⊢; exact ih _ _ h
      simp only [h4, if_false] at h ⊢
      by_cases h5 : i.code = 0x54#16
      · simp only [h5, if_true] at h ⊢; exact ih _ _ h
      simp only [h5, if_false] at h ⊢
      by_cases h6 : i.code = 0x06#16
      · simp [h6]
      · simp [h6] at h

end Bpfvm

namespace Spec
open Bpfvm Kernel Pledge

theorem countFrom_step (p : Prog) (w : List (BitVec 32)) (r : Regs) (i : SockFilter) (h : p[r.pc]? = some i) :
    countFrom p w r = match Kernel.step w i r with
      | .next r' => (countFrom p w r').bind fun x => some (x.1, x.2 + 1)
      | .done v => some (v, 1)
      | .bad => none := by
  rw [countFrom, h]
  rfl

theorem countFrom_of_ev (w : List (BitVec 32)) (p l pre : List SockFilter) (n : Nat) (r : Regs)
    (hprog : p = pre ++ l) (hpc : r.pc = pre.length + n) (v : BitVec 32) (h : ev w l n r.A = .ret v) :
    countFrom p w r = some (v, evC w l n r.A) := by
  induction l generalizing pre n r with
  | nil => cases n <;> simp [ev] at h
  | cons i rest ih =>
    have hp' : p = (pre ++ [i]) ++ rest := by simp [hprog]
    cases n with
    | succ n => exact ih (pre ++ [i]) n r hp' (by simp [hpc]; omega) (by simpa only [ev] using h)
    | zero =>
      have hget : p[r.pc]? = some i := by simp [hprog, hpc]
      rw [countFrom_step p w r i hget]
      simp only [ev] at h
      obtain ⟨code, jt, jf, k⟩ := i
      simp only [evC] at *
      by_cases h1 : code = 0x20#16
      · subst h1
        simp only [if_true] at h
        cases hv : w[k.toNat / 4]? with
        | none => simp [hv] at h
        | some v' =>
          simp only [hv] at h
          have := ih _ 0 { r with pc := r.pc + 1, A := v' } hp' (by simp [hpc]) h
          simp [Kernel.step, hv, this, Nat.add_comm]
      rw [if_neg h1] at h ⊢
      by_cases h2 : code = 0x15#16
      · subst h2
        have := ih _ (if r.A = k then jt.toNat else jf.toNat)
          { r with pc := r.pc + 1 + (if r.A = k then jt.toNat else jf.toNat) } hp' (by simp [hpc]) (by simpa using h)
        simp [Kernel.step, Kernel.cond, this, Nat.add_comm]
      rw [if_neg h2] at h ⊢
      by_cases h3 : code = 0x25#16
      · subst h3
        have := ih _ (if k < r.A then jt.toNat else jf.toNat)
          { r with pc := r.pc + 1 + (if k < r.A then jt.toNat else jf.toNat) } hp' (by simp [hpc]) (by simpa using h)
        simp [Kernel.step, Kernel.cond, this, Nat.add_comm]
      rw [if_neg h3] at h ⊢
      by_cases h4 : code = 0x05#16
      · subst h4
        have := ih _ k.toNat { r with pc := r.pc + 1 + k.toNat } hp' (by simp [hpc]) (by simpa using h)
        simp [Kernel.step, this, Nat.add_comm]
      rw [if_neg h4] at h ⊢
      by_cases h5 : code = 0x54#16
      · subst h5
        have := ih _ 0 { r with pc := r.pc + 1, A := r.A &&& k } hp' (by simp [hpc]) (by simpa using h)
        simp [Kernel.step, alu, this, Nat.add_comm]
      rw [if_neg h5] at h ⊢
      by_cases h6 : code = 0x06#16
      · subst h6
        simp only [if_true, Ev.ret.injEq] at h
        simp [Kernel.step, h]
      rw [if_neg h6] at h
      simp at h

theorem step_later (w : List (BitVec 32)) (i : SockFilter) (r r' : Regs) (h : Kernel.step w i r = .next r') : r.pc < r'.pc := by
  unfold Kernel.step at h
  dsimp only at h
  repeat' split at h
  all_goals first
    | (cases h; done)
    | (injection h with h; subst h; simp only; omega)

end Spec

namespace Pledge
open Bpfvm Spec

/-- The number that a filter is about. -/
def nrOf : Filtered → BitVec 32
  | .Whitelist s => s.setWidth 32
  | .FcntlStdio => 0x48#32
  | .MmapNoexec => 0x9#32
  | .MprotectNoexec => 0xa#32
  | .SendtoAddrless => 0x2c#32
  | .IoctlRestrict => 0x10#32
  | .KillSelf => 0x3e#32
  | .TkillSelf => 0xc8#32
  | .PrctlStdio => 0x9d#32
  | .CloneThread => 0x38#32
  | .Prlimit64Stdio => 0x12e#32
  | .OpenReadonly => 0x2#32
  | .OpenatReadonly => 0x101#32
  | .OpenWriteonly => 0x2#32
  | .OpenatWriteonly => 0x101#32
  | .ChmodNobits => 0x5a#32
  | .FchmodNobits => 0x5b#32
  | .FchmodatNobits => 0x10c#32
  | .OpenCreateonly => 0x2#32
  | .OpenatCreateonly => 0x101#32
  | .CreatRestrict => 0x55#32
  | .FcntlLock => 0x48#32
  | .SocketInet => 0x29#32
  | .IoctlInet => 0x10#32
  | .GetsockoptRestrict => 0x37#32
  | .SetsockoptRestrict => 0x37#32
  | .SocketUnix => 0x29#32
  | .IoctlTty => 0x10#32
  | .CloneRestrict => 0x38#32
  | .MmapExec => 0x9#32

/-- What a fragment costs a call with another number. -/
def idle (f : Filtered) : Nat := if isWhitelist f then 1 else 2

/-- What a fragment costs at most a call that it does not allow. -/
def worst : Filtered → Nat
  | .Whitelist _ => 1
  | .FcntlStdio => 5
  | .MmapNoexec => 7
  | .MprotectNoexec => 5
  | .SendtoAddrless => 6
  | .IoctlRestrict => 8
  | .KillSelf => 5
  | .TkillSelf => 5
  | .PrctlStdio => 11
  | .CloneThread => 8
  | .Prlimit64Stdio => 4
  | .OpenReadonly => 8
  | .OpenatReadonly => 8
  | .OpenWriteonly => 9
  | .OpenatWriteonly => 9
  | .ChmodNobits => 5
  | .FchmodNobits => 5
  | .FchmodatNobits => 5
  | .OpenCreateonly => 11
  | .OpenatCreateonly => 11
  | .CreatRestrict => 5
  | .FcntlLock => 7
  | .SocketInet => 15
  | .IoctlInet => 5
  | .GetsockoptRestrict => 14
  | .SetsockoptRestrict => 24
  | .SocketUnix => 12
  | .IoctlTty => 16
  | .CloneRestrict => 5
  | .MmapExec => 5

theorem longest_frag (ids : Ids) (falls : Bool) (f : Filtered) : longest falls (frag ids f) 0 = longest falls (frag ⟨0, 0⟩ f) 0 := by
  cases f <;> rfl

theorem worst_eq (f : Filtered) : longest true (frag ⟨0, 0⟩ f) 0 = worst f := by cases f <;> rfl

theorem longest_ret (f : Filtered) : longest false (frag ⟨0, 0⟩ f) 0 ≤ worst f + 1 := by
  cases f <;> first | decide | (simp [worst, frag, longest])

theorem frag_idle (ids : Ids) (d : SeccompData) (f : Filtered) (h : d.nr ≠ nrOf f) :
    evC d.words (frag ids f) 0 d.nr = idle f := by
  cases f <;> simp [nrOf] at h <;> simp [frag, evC, h, idle, isWhitelist, SeccompData.words]

theorem frag_skip (ids : Ids) (d : SeccompData) (f : Filtered) (h : d.nr ≠ nrOf f) : ev d.words (frag ids f) 0 d.nr = .fall d.nr := by
  cases f <;> simp [nrOf] at h <;> simp [frag, ev, h, SeccompData.words]

/-- The cost of the fragments and the violation. -/
def kost (ids : Ids) (d : SeccompData) : List Filtered → Nat
  | [] => 1
  | f :: fs => evC d.words (frag ids f) 0 d.nr + match ev d.words (frag ids f) 0 d.nr with
    | .fall _ => kost ids d fs
    | _ => 0

theorem kost_eq (ids : Ids) (d : SeccompData) (v : BitVec 32) (fs : List Filtered) :
    evC d.words (body ids fs ++ [⟨0x6, 0, 0, v⟩]) 0 d.nr = kost ids d fs := by
  induction fs with
  | nil => simp [body, evC, kost]
  | cons f fs ih =>
    have hb : body ids (f :: fs) = frag ids f ++ body ids fs := by simp [body]
    have hf := ev_frag ids f d
    rw [hb, List.append_assoc]
    by_cases hm : Match ids d f
    · rw [evC_append _ _ _ _ _ (by rw [hf.1 hm]; simp), kost, hf.1 hm]
    · rw [evC_append _ _ _ _ _ (by rw [hf.2 hm]; simp), kost, hf.2 hm]
      simp only [ih]

theorem evC_header (d : SeccompData) (a : BitVec 32) : evC d.words header 0 a = 3 := by
  by_cases h : d.arch = 0xC000003E#32 <;> simp [header, evC, SeccompData.words, h]

theorem cost_progOf (m0 : Nat → BitVec 32) (ids : Ids) (ps : List Promise) (v : BitVec 32) (d : SeccompData) :
    cost m0 (progOf ids ps v) d = some (if d.arch = 0xC000003E then 3 + kost ids d (allFilters ps) else 3) := by
  have hh : ∀ a, ev d.words header 0 a = if d.arch = 0xC000003E then .fall d.nr else .ret 0x80000000 := by
    intro a
    simp only [header, ev_ld4, ev_jeq, ev_ret, ev_skip, ev_ld0, ev_nil, BitVec.reduceToNat]
  unfold cost
  rw [countFrom_of_ev d.words (progOf ids ps v) (progOf ids ps v) [] 0 ⟨0, 0, 0, m0⟩ rfl rfl _ (ev_prog_verdict ids d ps v)]
  simp only [Option.map_some, Option.some.injEq]
  unfold progOf
  rw [List.append_assoc]
  split
  · rename_i ha
    rw [evC_append _ _ _ _ _ (by rw [hh, if_pos ha]; simp), hh, if_pos ha, evC_header]
    simp only [kost_eq]
  · rename_i ha
    rw [evC_append _ _ _ _ _ (by rw [hh, if_neg ha]; simp), hh, if_neg ha, evC_header]
    rfl

theorem kost_pos (ids : Ids) (d : SeccompData) (fs : List Filtered) : 1 ≤ kost ids d fs := by
  cases fs with
  | nil => exact Nat.le_refl 1
  | cons f fs =>
    have : 1 ≤ evC d.words (frag ids f) 0 d.nr := by
      cases f <;> exact Nat.le_add_right 1 _
    simp only [kost]; omega

theorem kost_idle (ids : Ids) (d : SeccompData) (fs : List Filtered) (h : ∀ f ∈ fs, d.nr ≠ nrOf f) :
    kost ids d fs = 1 + (fs.map idle).sum := by
  induction fs with
  | nil => rfl
  | cons f fs ih =>
    rw [kost, frag_idle ids d f (h f (by simp)), frag_skip ids d f (h f (by simp))]
    simp only [List.map_cons, List.sum_cons]
    rw [ih fun g hg => h g (by simp [hg])]
    omega

/-- What a fragment costs at most, by the number of the call. -/
def weigh (nr : BitVec 32) (f : Filtered) : Nat := if nr = nrOf f then worst f else idle f

theorem kost_le (ids : Ids) (d : SeccompData) (fs : List Filtered) : kost ids d fs ≤ 1 + (fs.map (weigh d.nr)).sum := by
  induction fs with
  | nil => exact Nat.le_refl 1
  | cons f fs ih =>
    simp only [kost, List.map_cons, List.sum_cons]
    by_cases hn : d.nr = nrOf f
    · have hw : weigh d.nr f = worst f := if_pos hn
      have hf := ev_frag ids f d
      by_cases hm : Match ids d f
      · rw [hf.1 hm]
        have h1 := evC_le d.words false (frag ids f) 0 d.nr (by rw [hf.1 hm]; simp) (by simp)
        have h2 := longest_ret f
        rw [longest_frag] at h1
        simp only
        omega
      · rw [hf.2 hm]
        have h1 := evC_le d.words true (frag ids f) 0 d.nr (by rw [hf.2 hm]; simp) (by rw [hf.2 hm]; simp)
        rw [longest_frag, worst_eq] at h1
        simp only
        omega
    · have hw : weigh d.nr f = idle f := if_neg hn
      rw [frag_idle ids d f hn, frag_skip ids d f hn]
      simp only
      omega

theorem kost_append (ids : Ids) (d : SeccompData) (fs gs : List Filtered) :
    kost ids d fs ≤ kost ids d (fs ++ gs) ∧ ((∃ f ∈ fs, Match ids d f) → kost ids d (fs ++ gs) = kost ids d fs) := by
  induction fs with
  | nil => exact ⟨kost_pos ids d gs, by simp⟩
  | cons f fs ih =>
    have hf := ev_frag ids f d
    simp only [List.cons_append, kost]
    by_cases hm : Match ids d f
    · rw [hf.1 hm]
      exact ⟨Nat.le_refl _, fun _ => rfl⟩
    · rw [hf.2 hm]
      refine ⟨Nat.add_le_add_left ih.1 _, ?_⟩
      rintro ⟨g, hg, h⟩
      rcases List.mem_cons.1 hg with rfl | hg
      · exact absurd h hm
      · simp only [ih.2 ⟨g, hg, h⟩]

/-! ## the tables -/

theorem idle_table (p : Promise) : ((filtersOf p).map idle).sum = idleCost p := by cases p <;> decide +kernel

/-- What a fragment with argument checks costs a call with its number in addition. -/
def extra (nr : BitVec 32) (f : Filtered) : Nat := if nr = nrOf f then worst f - idle f else 0

theorem weigh_extra (nr : BitVec 32) (fs : List Filtered) :
    (fs.map (weigh nr)).sum = (fs.map idle).sum + ((fs.filter fun f => !isWhitelist f).map (extra nr)).sum := by
  induction fs with
  | nil => rfl
  | cons f fs ih =>
    have hi : idle f ≤ worst f := by cases f <;> simp [idle, isWhitelist, worst]
    have hw : isWhitelist f = true → worst f = idle f := by cases f <;> simp [isWhitelist, worst, idle]
    have he : weigh nr f = idle f + extra nr f := by unfold weigh extra; split <;> omega
    cases h : isWhitelist f with
    | true =>
      have hz : extra nr f = 0 := by unfold extra; rw [hw h]; simp
      simp [h, ih]; omega
    | false => simp [h, ih]; omega

theorem extra_ok : (allPromises.all fun p => ((special p).map nrOf).all fun nr =>
    (idleCost p + ((special p).map (extra nr)).sum).ble (worstCost p)) = true := by
  decide +kernel

theorem extra_table (p : Promise) (nr : BitVec 32) (h : nr ∈ (special p).map nrOf) :
    idleCost p + ((special p).map (extra nr)).sum ≤ worstCost p := by
  have := extra_ok
  rw [List.all_eq_true] at this
  have := this p (mem_allPromises p)
  rw [List.all_eq_true] at this
  exact Nat.le_of_ble_eq_true (this nr h)

theorem idle_worst (p : Promise) : idleCost p ≤ worstCost p := by cases p <;> decide

theorem weigh_table (p : Promise) (nr : BitVec 32) : ((filtersOf p).map (weigh nr)).sum ≤ worstCost p := by
  rw [weigh_extra, idle_table, special_eq]
  by_cases h : nr ∈ (special p).map nrOf
  · exact extra_table p nr h
  · have : ((special p).map (extra nr)).sum = 0 := by
      have : (special p).map (extra nr) = (special p).map fun _ => 0 := by
        apply List.map_congr_left
        intro f hf
        unfold extra
        rw [if_neg]
        rintro rfl
        exact h (List.mem_map_of_mem hf)
      rw [this]
      generalize special p = l
      induction l with
      | nil => rfl
      | cons _ _ ih => simpa using ih
    rw [this]
    exact idle_worst p

theorem allFilters_sum (g : Filtered → Nat) (ps : List Promise) :
    ((allFilters ps).map g).sum = ((filtersOf .Default).map g).sum + (ps.map fun p => ((filtersOf p).map g).sum).sum := by
  unfold allFilters
  rw [Kernel.sum_flatten_map]
  simp [Function.comp_def]

theorem allFilters_append (ps qs : List Promise) : allFilters (ps ++ qs) = allFilters ps ++ ((qs.map filtersOf).flatten) := by
  unfold allFilters
  simp

/-- Arguments with which a fragment allows its call. -/
def fine : Filtered → List Nat
  | .IoctlRestrict => [0, 0x541b]
  | .PrctlStdio => [15]
  | .CloneThread => [0x10f00]
  | .OpenWriteonly | .OpenatWriteonly => [0, 0, 1]
  | .OpenCreateonly | .OpenatCreateonly => [0, 0, 0x40]
  | .FcntlLock => [0, 5]
  | .SocketInet => [2, 1]
  | .IoctlInet => [0, 0x8905]
  | .GetsockoptRestrict => [0, 1, 3]
  | .SetsockoptRestrict => [0, 0, 1]
  | .SocketUnix => [1, 1]
  | .IoctlTty => [0, 0x5401]
  | _ => []

theorem fine_matches (f : Filtered) : Match ⟨0, 0⟩ { mkCall 0 (fine f) with nr := nrOf f } f := by
  have key : ev ({ mkCall 0 (fine f) with nr := nrOf f } : SeccompData).words (frag ⟨0, 0⟩ f) 0 (nrOf f) = .ret 0x7fff0000 := by
    cases f
    case Whitelist s => simp [nrOf, frag, ev, SeccompData.words]
    all_goals decide +kernel
  cases Classical.em (Match ⟨0, 0⟩ { mkCall 0 (fine f) with nr := nrOf f } f) with
  | inl h => exact h
  | inr h => rw [(ev_frag ⟨0, 0⟩ f _).2 h] at key; cases key

/-- A call that each promise is slow about. -/
def hard : Promise → SeccompData
  | .StdIO => mkCall 157 [99]
  | .RPath => mkCall 2 [0, 0, 0x40]
  | .WPath => mkCall 2 [0, 0, 0x42]
  | .CPath => mkCall 2 [0, 0, 0x400000, 0xe00]
  | .FLock => mkCall 72 [0, 99]
  | .FAttr => mkCall 90 [0, 0xe00]
  | .Inet | .Unix => mkCall 55 [0, 6, 99]
  | .Dns => mkCall 41 [10, 2, 99]
  | .Tty => mkCall 16 [0, 99]
  | .Proc => mkCall 56 [0x2000]
  | .ProtExec => mkCall 9 [0, 0, 0, 0x2000]
  | _ => mkCall 999 []

theorem frag_ids (ids : Ids) (d : SeccompData) (f : Filtered) (h1 : d.nr ≠ 62#32) (h2 : d.nr ≠ 200#32) :
    evC d.words (frag ids f) 0 d.nr = evC d.words (frag ⟨0, 0⟩ f) 0 d.nr ∧
    ev d.words (frag ids f) 0 d.nr = ev d.words (frag ⟨0, 0⟩ f) 0 d.nr := by
  cases f
  case KillSelf => exact ⟨by rw [frag_idle _ _ _ h1, frag_idle _ _ _ h1], by rw [frag_skip _ _ _ h1, frag_skip _ _ _ h1]⟩
  case TkillSelf => exact ⟨by rw [frag_idle _ _ _ h2, frag_idle _ _ _ h2], by rw [frag_skip _ _ _ h2, frag_skip _ _ _ h2]⟩
  all_goals exact ⟨rfl, rfl⟩

theorem kost_ids (ids : Ids) (d : SeccompData) (h1 : d.nr ≠ 62#32) (h2 : d.nr ≠ 200#32) (fs : List Filtered) :
    kost ids d fs = kost ⟨0, 0⟩ d fs := by
  induction fs with
  | nil => rfl
  | cons f fs ih => simp only [kost, (frag_ids ids d f h1 h2).1, (frag_ids ids d f h1 h2).2, ih]

theorem hard_table : ∀ p ∈ allPromises, (hard p).nr ≠ 62#32 ∧ (hard p).nr ≠ 200#32 ∧ (hard p).arch = X86_64 ∧
    kost ⟨0, 0⟩ (hard p) (allFilters [p]) = 2 + worstCost p := by
  decide +kernel

end Pledge
