import Verif.Spec.Log
import Verif.Proofs.VmStep

/-!
# Lemmas on the log of the VM
-/
set_option autoImplicit false

namespace Bpfvm
open Libc Spec

/-! ## Hexadecimal digits -/

def isHex (c : Char) : Bool := "0123456789abcdef".toList.contains c

def hexVal (c : Char) : Nat := "0123456789abcdef".toList.idxOf c

def unhex (l : List Char) : Nat := l.foldl (fun a c => 16 * a + hexVal c) 0

theorem digitChar_facts : ∀ d, d < 16 → isHex (Nat.digitChar d) = true ∧ hexVal (Nat.digitChar d) = d := by decide

theorem hexDigits (n : Nat) : (∀ c ∈ Nat.toDigits 16 n, isHex c = true) ∧ unhex (Nat.toDigits 16 n) = n := by
  induction n using Nat.strongRecOn with
  | ind n ih =>
    rw [Nat.toDigits_eq_if (by decide)]
    by_cases h : n < 16
    · rw [if_pos h]
      have := digitChar_facts n h
      simp [unhex, this]
    · rw [if_neg h]
      have h1 := ih (n / 16) (by omega)
      have h2 := digitChar_facts (n % 16) (by omega)
      constructor
      · intro c hc
        rcases List.mem_append.1 hc with hc | hc
        · exact h1.1 c hc
        · rw [List.mem_singleton] at hc
          rw [hc]; exact h2.1
      · unfold unhex at h1 ⊢
        rw [List.foldl_append, h1.2]
        simp only [List.foldl_cons, List.foldl_nil, h2.2]
        omega

theorem toDigits_stop (a : Nat) (r : List Char) (hr : ∀ c, r.head? = some c → isHex c = false) :
    (Nat.toDigits 16 a ++ r).takeWhile isHex = Nat.toDigits 16 a ∧ (Nat.toDigits 16 a ++ r).dropWhile isHex = r := by
  rw [List.takeWhile_append_of_pos (hexDigits a).1, List.dropWhile_append_of_pos (hexDigits a).1]
  cases r with
  | nil => simp
  | cons c r =>
    have := hr c rfl
    simp [this]

/-- Two texts that start with hexadecimal numbers, each followed by something else or nothing. -/
theorem hex_stop {a b : Nat} {r s : List Char} (hr : ∀ c, r.head? = some c → isHex c = false)
    (hs : ∀ c, s.head? = some c → isHex c = false) (h : (hex a).toList ++ r = (hex b).toList ++ s) : a = b ∧ r = s := by
  unfold hex at h
  rw [String.toList_ofList, String.toList_ofList] at h
  have ha := toDigits_stop a r hr
  have hb := toDigits_stop b s hs
  rw [h] at ha
  constructor
  · have := ha.1.symm.trans hb.1
    rw [← (hexDigits a).2, ← (hexDigits b).2, this]
  · exact ha.2.symm.trans hb.2

theorem hex_inj {a b : Nat} (h : hex a = hex b) : a = b := by
  have := congrArg String.toList h
  exact (hex_stop (r := []) (s := []) (by simp) (by simp) (by simpa using this)).1

theorem toNat_inj {n : Nat} {x y : BitVec n} (h : x.toNat = y.toNat) : x = y := BitVec.eq_of_toNat_eq h

theorem debug_inj {i j : SockFilter} {r s : List Char} (h : i.debug.toList ++ r = j.debug.toList ++ s) : i = j ∧ r = s := by
  unfold SockFilter.debug at h
  simp only [String.toList_append, List.append_assoc] at h
  have h := List.append_cancel_left h
  obtain ⟨h1, h⟩ := hex_stop (by simp; decide) (by simp; decide) h
  have h := List.append_cancel_left h
  obtain ⟨h2, h⟩ := hex_stop (by simp; decide) (by simp; decide) h
  have h := List.append_cancel_left h
  obtain ⟨h3, h⟩ := hex_stop (by simp; decide) (by simp; decide) h
  have h := List.append_cancel_left h
  obtain ⟨h4, h⟩ := hex_stop (by simp; decide) (by simp; decide) h
  have h := List.append_cancel_left h
  refine ⟨?_, h⟩
  cases i; cases j
  simp only [SockFilter.mk.injEq]
  exact ⟨toNat_inj h1, toNat_inj h2, toNat_inj h3, toNat_inj h4⟩

theorem lineExecuting_inj {p q : Nat} {i j : SockFilter} (h : lineExecuting p i = lineExecuting q j) : p = q ∧ i = j := by
  unfold lineExecuting at h
  simp only [Line.mk.injEq, true_and] at h
  have h := congrArg String.toList h
  simp only [String.toList_append, List.append_assoc] at h
  have h := List.append_cancel_left h
  obtain ⟨h1, h⟩ := hex_stop (by simp; decide) (by simp; decide) h
  have h := List.append_cancel_left h
  exact ⟨h1, (debug_inj (r := []) (s := []) (by simpa using h)).1⟩

theorem lineAcc_inj {v w : BitVec 32} (h : lineAcc v = lineAcc w) : v = w := by
  unfold lineAcc info at h
  simp only [Line.mk.injEq, true_and] at h
  have h := congrArg String.toList h
  simp only [String.toList_append, List.append_assoc] at h
  have h := List.append_cancel_left h
  exact toNat_inj (hex_stop (by simp; decide) (by simp; decide) h).1

theorem lineIdx_inj {v w : BitVec 32} (h : lineIdx v = lineIdx w) : v = w := by
  unfold lineIdx info at h
  simp only [Line.mk.injEq, true_and] at h
  have h := congrArg String.toList h
  simp only [String.toList_append, List.append_assoc] at h
  have h := List.append_cancel_left h
  exact toNat_inj (hex_stop (by simp; decide) (by simp; decide) h).1

theorem lineReturned_inj {v w : BitVec 32} (h : lineReturned v = lineReturned w) : v = w := by
  unfold lineReturned info at h
  simp only [Line.mk.injEq, true_and] at h
  have h := congrArg String.toList h
  simp only [String.toList_append, List.append_assoc] at h
  have h := List.append_cancel_left h
  exact toNat_inj (hex_stop (by simp; decide) (by simp; decide) h).1

/-! ## The log changes nothing -/

theorem fetchSrcL_fst (vm : VM) (src : BitVec 16) (curr : SockFilter) : (vm.fetchSrcL src curr).1 = vm.fetchSrc src curr := by
  unfold VM.fetchSrcL VM.fetchSrc
  simp only [apply_ite Prod.fst]

theorem aluL_fst (b : Build) (vm : VM) (curr : SockFilter) : (vm.aluL b curr).1 = vm.aluValue b curr := by
  unfold VM.aluL VM.aluValue
  rw [← fetchSrcL_fst]
  rcases vm.fetchSrcL (curr.code &&& 0x08#16) curr with ⟨v | e | _, l⟩
  · simp only [Res.bind, apply_ite Prod.fst]
  · rfl
  · rfl

theorem jumpL_fst (vm : VM) (curr : SockFilter) : (vm.jumpL curr).1 = vm.jumpAmount curr := by
  unfold VM.jumpL VM.jumpAmount
  simp only [apply_ite Prod.fst, apply_ite (Res.ok (ε := Error) (α := Nat))]

theorem executeInstrL_fst (b : Build) (vm : VM) (data : RunData) (curr : SockFilter) :
    ((vm.executeInstrL b data curr).1, (vm.executeInstrL b data curr).2.1) = vm.executeInstr b data curr := by
  unfold VM.executeInstrL VM.executeInstr
  rw [← aluL_fst, ← jumpL_fst, ← fetchSrcL_fst]
  simp only
  split
  · cases vm.ldValue b data curr <;> rfl
  split
  · cases vm.ldxValue data curr <;> rfl
  split
  · split <;> rfl
  split
  · split <;> rfl
  split
  · rcases vm.aluL b curr with ⟨v | e | _, l⟩ <;> rfl
  split
  · rcases vm.jumpL curr with ⟨v | e | _, l⟩ <;> rfl
  split
  · rcases vm.fetchSrcL (curr.code &&& 0x18#16) curr with ⟨v | e | _, l⟩ <;> rfl
  split <;> rfl

theorem executeL_fst (b : Build) (vm : VM) (data : RunData) :
    ((vm.executeL b data).1, (vm.executeL b data).2.1) = vm.execute b data := by
  unfold VM.executeL VM.execute
  cases vm.prog[vm.pc]? with
  | none => rfl
  | some curr => exact executeInstrL_fst b _ data _

/-! ## Runs with their logs -/

/-- A run from `vm` on, with what it logs; cf. `Spec.Exec`. -/
inductive ExecL (b : Build) (data : RunData) : VM → List Line → VM → Res Error (BitVec 32) → Prop
  | off (vm : VM) : vm.prog.length ≤ vm.pc → ExecL b data vm [] vm (.ok 0)
  | value (vm vm' : VM) (r : BitVec 32) (l : List Line) : vm.pc < vm.prog.length → vm.executeL b data = (vm', .ok (some r), l) →
      ExecL b data vm (l ++ [lineReturned r]) vm' (.ok r)
  | error (vm vm' : VM) (e : Error) (l : List Line) : vm.pc < vm.prog.length → vm.executeL b data = (vm', .err e, l) →
      ExecL b data vm l vm' (.err e)
  | panics (vm vm' : VM) (l : List Line) : vm.pc < vm.prog.length → vm.executeL b data = (vm', .panic, l) → ExecL b data vm l vm' .panic
  | next (vm vm' vm'' : VM) (l out : List Line) (r : Res Error (BitVec 32)) : vm.pc < vm.prog.length →
      vm.executeL b data = (vm', .ok none, l) → ExecL b data vm' out vm'' r → ExecL b data vm (l ++ out) vm'' r

theorem loopL_done (b : Build) (vm : VM) (data : RunData) (out : List Line) (h : vm.prog.length ≤ vm.pc) :
    vm.loopL b data out = some (vm, .ok 0, out) := by
  rw [VM.loopL, if_neg (by omega)]

theorem execL_exists (b : Build) (data : RunData) (n : Nat) (vm : VM) (hn : vm.prog.length - vm.pc ≤ n) :
    ∃ l vm' r, ExecL b data vm l vm' r ∧ ∀ out, vm.loopL b data out = some (vm', r, out ++ l) := by
  induction n generalizing vm with
  | zero =>
    exact ⟨[], vm, .ok 0, .off vm (by omega), fun out => by rw [loopL_done _ _ _ _ (by omega), List.append_nil]⟩
  | succ n ih =>
    by_cases hlt : vm.pc < vm.prog.length
    · have hf := executeL_fst b vm data
      have hp := execute_prog b vm data
      have hc := execute_pc b vm data hlt
      rw [← hf] at hp hc
      simp only at hp hc
      have hunf : ∀ out, vm.loopL b data out = match vm.executeL b data with
          | (vm', .ok none, l) => VM.loopL b vm' data (out ++ l)
          | (vm', .ok (some r), l) => some (vm', .ok r, out ++ l ++ [lineReturned r])
          | (vm', .err e, l) => some (vm', .err e, out ++ l)
          | (vm', .panic, l) => some (vm', .panic, out ++ l) := by
        intro out; rw [VM.loopL, if_pos hlt]; rfl
      rcases hx : vm.executeL b data with ⟨vm', (_ | r) | e | _, l⟩
      · rw [hx] at hp hc
        simp only at hp hc
        obtain ⟨l', v, r, h1, h2⟩ := ih vm' (by rw [hp]; omega)
        exact ⟨l ++ l', v, r, .next vm vm' v l l' r hlt hx h1, fun out => by rw [hunf, hx]; simp only [h2, List.append_assoc]⟩
      · exact ⟨_, vm', _, .value vm vm' r l hlt hx, fun out => by rw [hunf, hx]; simp only [List.append_assoc]⟩
      · exact ⟨_, vm', _, .error vm vm' e l hlt hx, fun out => by rw [hunf, hx]⟩
      · exact ⟨_, vm', _, .panics vm vm' l hlt hx, fun out => by rw [hunf, hx]⟩
    · exact ⟨[], vm, .ok 0, .off vm (by omega), fun out => by rw [loopL_done _ _ _ _ (by omega), List.append_nil]⟩

/-- The two loops agree, and a run with its log is a run. -/
theorem execL_exec {b : Build} {data : RunData} {vm vm' : VM} {l : List Line} {r : Res Error (BitVec 32)} (h : ExecL b data vm l vm' r) :
    vm.loop b data = some (vm', r) := by
  induction h with
  | off vm h => exact loop_done b vm data h
  | value vm vm' r l h1 h2 => rw [VM.loop, if_pos h1, ← executeL_fst, h2]
  | error vm vm' e l h1 h2 => rw [VM.loop, if_pos h1, ← executeL_fst, h2]
  | panics vm vm' l h1 h2 => rw [VM.loop, if_pos h1, ← executeL_fst, h2]
  | next vm vm' vm'' l out r h1 h2 _ ih => rw [VM.loop, if_pos h1, ← executeL_fst, h2]; exact ih

theorem execL_log {b : Build} {data : RunData} {vm vm' : VM} {l : List Line} {r : Res Error (BitVec 32)} (h : ExecL b data vm l vm' r)
    (out : List Line) : vm.loopL b data out = some (vm', r, out ++ l) := by
  induction h generalizing out with
  | off vm h => rw [loopL_done b vm data out h, List.append_nil]
  | value vm vm' r l h1 h2 => rw [VM.loopL, if_pos h1, h2]; simp only [List.append_assoc]
  | error vm vm' e l h1 h2 => rw [VM.loopL, if_pos h1, h2]
  | panics vm vm' l h1 h2 => rw [VM.loopL, if_pos h1, h2]
  | next vm vm' vm'' l out' r h1 h2 _ ih => rw [VM.loopL, if_pos h1, h2]; simp only [ih, List.append_assoc]

/-! ## Kinds of lines -/

/-- The line is not the first one of `run`, nor its last one. -/
def Inner (l : Line) : Prop := l ≠ lineStart ∧ ∀ r, l ≠ lineReturned r

theorem inner_of (l : Line) (h : (l.text.toList.take 2) ≠ ['S', 't'] ∧ (l.text.toList.take 2) ≠ ['e', 'x']) : Inner l := by
  constructor
  · rintro rfl; exact h.1 (by decide)
  · rintro r rfl; apply h.2
    unfold lineReturned info
    simp [String.toList_append]

theorem fetchSrcL_inner (vm : VM) (src : BitVec 16) (curr : SockFilter) : ∀ l ∈ (vm.fetchSrcL src curr).2, Inner l ∧ l ≠ lineNeg := by
  unfold VM.fetchSrcL
  simp only
  split
  · simp only [List.mem_singleton, forall_eq]
    exact ⟨inner_of _ (by unfold info; simp [String.toList_append]), by simp [info, lineNeg]⟩
  split
  · simp only [List.mem_singleton, forall_eq]
    exact ⟨inner_of _ (by unfold info; simp [String.toList_append]), by simp [info, lineNeg]⟩
  split
  · simp only [List.mem_singleton, forall_eq]
    exact ⟨inner_of _ (by unfold info; simp [String.toList_append]), by simp [info, lineNeg]⟩
  · simp

theorem ite_both {α : Type _} {P : α → Prop} {c : Prop} [Decidable c] {x y : α} (hx : P x) (hy : P y) : P (if c then x else y) := by
  split
  · exact hx
  · exact hy

theorem ite_both2 {α : Type _} {R : α → α → Prop} {c : Prop} [Decidable c] {x y x' y' : α} (hx : R x x') (hy : R y y') :
    R (if c then x else y) (if c then x' else y') := by
  split
  · exact hx
  · exact hy

theorem aluL_lines (b : Build) (vm : VM) (curr : SockFilter) :
    (∀ l ∈ (vm.aluL b curr).2, Inner l) ∧
      (lineNeg ∈ (vm.aluL b curr).2 ↔ (vm.aluL b curr).1 = .err (.UnsupportedInstruction 0x80#16)) := by
  have hf := fetchSrcL_inner vm (curr.code &&& 0x08#16) curr
  have herr : ∀ e l, vm.fetchSrcL (curr.code &&& 0x08#16) curr = (.err e, l) → e = .InvalidInstructionCode curr.code := by
    intro e l h
    have := congrArg Prod.fst h
    rw [fetchSrcL_fst] at this
    unfold VM.fetchSrc at this
    simp only at this
    repeat' split at this
    all_goals first | cases this | skip
    rfl
  unfold VM.aluL
  rcases hx : vm.fetchSrcL (curr.code &&& 0x08#16) curr with ⟨v | e | _, l⟩
  · rw [hx] at hf
    simp only at hf ⊢
    have key : ∀ (x : Res Error (BitVec 32)) (s : String), (∀ e, x ≠ .err e) →
        ((info s).text.toList.take 2 ≠ ['S', 't'] ∧ (info s).text.toList.take 2 ≠ ['e', 'x']) →
        (∀ a ∈ (x, l ++ [info s]).2, Inner a) ∧ (lineNeg ∈ (x, l ++ [info s]).2 ↔ (x, l ++ [info s]).1 = .err (.UnsupportedInstruction 0x80#16)) := by
      intro x s hx hs
      refine ⟨?_, ?_⟩
      · intro a ha
        rcases List.mem_append.1 ha with ha | ha
        · exact (hf a ha).1
        · rw [List.mem_singleton] at ha
          rw [ha]; exact inner_of _ hs
      · constructor
        · intro h
          rcases List.mem_append.1 h with h | h
          · exact absurd rfl (hf _ h).2
          · rw [List.mem_singleton] at h
            cases h
        · intro h; exact absurd h (hx _)
    have hadd : ∀ x y e, addU32 b x y ≠ .err e := by intro x y e; unfold addU32; split <;> simp
    have hsub : ∀ x y e, subU32 b x y ≠ .err e := by intro x y e; unfold subU32; split <;> simp
    have hmul : ∀ x y e, mulU32 b x y ≠ .err e := by intro x y e; unfold mulU32; split <;> simp
    have hdiv : ∀ x y e, divU32 x y ≠ .err e := by intro x y e; unfold divU32; split <;> simp
    have hmod : ∀ x y e, modU32 x y ≠ .err e := by intro x y e; unfold modU32; split <;> simp
    have hshl : ∀ x y e, shlU32 b x y ≠ .err e := by intro x y e; unfold shlU32; split <;> simp
    have hshr : ∀ x y e, shrU32 b x y ≠ .err e := by intro x y e; unfold shrU32; split <;> simp
    let P : Res Error (BitVec 32) × List Line → Prop := fun z =>
      (∀ l ∈ z.2, Inner l) ∧ (lineNeg ∈ z.2 ↔ z.1 = .err (.UnsupportedInstruction 0x80#16))
    refine ite_both (P := P) (key _ _ (hadd _ _) (by unfold info; simp [String.toList_append])) ?_
    refine ite_both (P := P) (key _ _ (hsub _ _) (by unfold info; simp [String.toList_append])) ?_
    refine ite_both (P := P) (key _ _ (hmul _ _) (by unfold info; simp [String.toList_append])) ?_
    refine ite_both (P := P) (key _ _ (hdiv _ _) (by unfold info; simp [String.toList_append])) ?_
    refine ite_both (P := P) (key _ _ (by simp) (by unfold info; simp [String.toList_append])) ?_
    refine ite_both (P := P) (key _ _ (by simp) (by unfold info; simp [String.toList_append])) ?_
    refine ite_both (P := P) (key _ _ (hshl _ _) (by unfold info; simp [String.toList_append])) ?_
    refine ite_both (P := P) (key _ _ (hshr _ _) (by unfold info; simp [String.toList_append])) ?_
    refine ite_both (P := P) (key _ _ (hmod _ _) (by unfold info; simp [String.toList_append])) ?_
    refine ite_both (P := P) (key _ _ (by simp) (by unfold info; simp [String.toList_append])) ?_
    refine ite_both (P := P) ?_ ?_
    · refine ⟨?_, ?_⟩
      · intro a ha
        rcases List.mem_append.1 ha with ha | ha
        · exact (hf a ha).1
        · rw [List.mem_singleton] at ha
          rw [ha]; exact inner_of _ (by decide)
      · simp [BPF_NEG]
    · refine ⟨fun a ha => (hf a ha).1, ?_⟩
      constructor
      · intro h; exact absurd rfl (hf _ h).2
      · intro h; simp at h
  · rw [hx] at hf
    have := herr e l hx
    subst this
    refine ⟨fun a ha => (hf a ha).1, ?_⟩
    constructor
    · intro h; exact absurd rfl (hf _ h).2
    · intro h; simp at h
  · rw [hx] at hf
    refine ⟨fun a ha => (hf a ha).1, ?_⟩
    constructor
    · intro h; exact absurd rfl (hf _ h).2
    · intro h; simp at h

theorem jumpL_lines (vm : VM) (curr : SockFilter) :
    (∀ l ∈ (vm.jumpL curr).2, Inner l ∧ l ≠ lineNeg) ∧ ∀ c, (vm.jumpL curr).1 ≠ .err (.UnsupportedInstruction c) := by
  unfold VM.jumpL lineJump
  simp only
  repeat' split
  all_goals
    refine ⟨?_, by simp⟩
    simp only [List.mem_singleton, forall_eq, List.not_mem_nil, false_implies, implies_true]
    try exact ⟨inner_of _ (by unfold info; simp [String.toList_append]), by simp [info, lineNeg]⟩

theorem ldValue_not (b : Build) (vm : VM) (data : RunData) (curr : SockFilter) (c : BitVec 16) :
    vm.ldValue b data curr ≠ .err (.UnsupportedInstruction c) := by
  unfold VM.ldValue fetchData fetchU32 fetchU16 fetchU8 VM.readMem addU32
  intro h
  repeat' (first | (simp only [Res.bind] at h) | split at h | cases h)
  rename_i heq
  split at heq <;> cases heq

theorem ldxValue_not (vm : VM) (data : RunData) (curr : SockFilter) (c : BitVec 16) :
    vm.ldxValue data curr ≠ .err (.UnsupportedInstruction c) := by
  unfold VM.ldxValue VM.readMem
  intro h
  simp only at h
  repeat' (first | split at h | cases h)

theorem fetchSrcL_level (vm : VM) (src : BitVec 16) (curr : SockFilter) : ∀ l ∈ (vm.fetchSrcL src curr).2, l.level ≠ .debug := by
  unfold VM.fetchSrcL info
  simp only
  repeat' split
  all_goals simp

theorem aluL_level (b : Build) (vm : VM) (curr : SockFilter) : ∀ l ∈ (vm.aluL b curr).2, l.level ≠ .debug := by
  have hf := fetchSrcL_level vm (curr.code &&& 0x08#16) curr
  unfold VM.aluL
  rcases hx : vm.fetchSrcL (curr.code &&& 0x08#16) curr with ⟨v | e | _, l⟩ <;> rw [hx] at hf
  · let P : Res Error (BitVec 32) × List Line → Prop := fun z => ∀ l ∈ z.2, l.level ≠ .debug
    have key : ∀ (x : Res Error (BitVec 32)) (m : Line), m.level ≠ .debug → P (x, l ++ [m]) := by
      intro x m hm a ha
      rcases List.mem_append.1 ha with ha | ha
      · exact hf a ha
      · rw [List.mem_singleton] at ha; rw [ha]; exact hm
    have hi : ∀ s, (info s).level ≠ .debug := by intro s; simp [info]
    refine ite_both (P := P) (key _ _ (hi _)) ?_
    refine ite_both (P := P) (key _ _ (hi _)) ?_
    refine ite_both (P := P) (key _ _ (hi _)) ?_
    refine ite_both (P := P) (key _ _ (hi _)) ?_
    refine ite_both (P := P) (key _ _ (hi _)) ?_
    refine ite_both (P := P) (key _ _ (hi _)) ?_
    refine ite_both (P := P) (key _ _ (hi _)) ?_
    refine ite_both (P := P) (key _ _ (hi _)) ?_
    refine ite_both (P := P) (key _ _ (hi _)) ?_
    refine ite_both (P := P) (key _ _ (hi _)) ?_
    exact ite_both (P := P) (key _ _ (by decide)) hf
  · exact hf
  · exact hf

theorem jumpL_level (vm : VM) (curr : SockFilter) : ∀ l ∈ (vm.jumpL curr).2, l.level ≠ .debug := by
  unfold VM.jumpL lineJump info
  simp only
  repeat' split
  all_goals simp

theorem fetchSrcL_info (vm : VM) (src : BitVec 16) (curr : SockFilter) : ∀ l ∈ (vm.fetchSrcL src curr).2, l.level = .info := by
  unfold VM.fetchSrcL info
  simp only
  repeat' split
  all_goals simp

theorem jumpL_info (vm : VM) (curr : SockFilter) : ∀ l ∈ (vm.jumpL curr).2, l.level = .info := by
  unfold VM.jumpL lineJump info
  simp only
  repeat' split
  all_goals simp

theorem aluL_error (b : Build) (vm : VM) (curr : SockFilter) : ∀ l ∈ (vm.aluL b curr).2, l.level = .info ∨ l = lineNeg := by
  have hf := fetchSrcL_info vm (curr.code &&& 0x08#16) curr
  unfold VM.aluL
  rcases hx : vm.fetchSrcL (curr.code &&& 0x08#16) curr with ⟨v | e | _, l⟩ <;> rw [hx] at hf
  · let P : Res Error (BitVec 32) × List Line → Prop := fun z => ∀ l ∈ z.2, l.level = .info ∨ l = lineNeg
    have key : ∀ (x : Res Error (BitVec 32)) (m : Line), (m.level = .info ∨ m = lineNeg) → P (x, l ++ [m]) := by
      intro x m hm a ha
      rcases List.mem_append.1 ha with ha | ha
      · exact .inl (hf a ha)
      · rw [List.mem_singleton] at ha; rw [ha]; exact hm
    have hi : ∀ s, (info s).level = .info ∨ info s = lineNeg := fun _ => .inl rfl
    refine ite_both (P := P) (key _ _ (hi _)) ?_
    refine ite_both (P := P) (key _ _ (hi _)) ?_
    refine ite_both (P := P) (key _ _ (hi _)) ?_
    refine ite_both (P := P) (key _ _ (hi _)) ?_
    refine ite_both (P := P) (key _ _ (hi _)) ?_
    refine ite_both (P := P) (key _ _ (hi _)) ?_
    refine ite_both (P := P) (key _ _ (hi _)) ?_
    refine ite_both (P := P) (key _ _ (hi _)) ?_
    refine ite_both (P := P) (key _ _ (hi _)) ?_
    refine ite_both (P := P) (key _ _ (hi _)) ?_
    exact ite_both (P := P) (key _ _ (.inr rfl)) fun a ha => .inl (hf a ha)
  · exact fun a ha => .inl (hf a ha)
  · exact fun a ha => .inl (hf a ha)

/-- The only line of level error. -/
theorem executeInstrL_error (b : Build) (vm : VM) (data : RunData) (curr : SockFilter) :
    ∀ l ∈ (vm.executeInstrL b data curr).2.2, l.level ≠ .error ∨ l = lineNeg := by
  have h0 : (lineClass curr).level ≠ .error ∨ lineClass curr = lineNeg := .inl (by simp [lineClass])
  have hinfo : ∀ l : Line, l.level = .info → l.level ≠ .error ∨ l = lineNeg := fun l h => .inl (by rw [h]; decide)
  have ha : ∀ l ∈ (vm.aluL b curr).2, l.level ≠ .error ∨ l = lineNeg := fun l hl =>
    (aluL_error b vm curr l hl).elim (hinfo l) .inr
  have hj : ∀ l ∈ (vm.jumpL curr).2, l.level ≠ .error ∨ l = lineNeg := fun l hl => hinfo l (jumpL_info vm curr l hl)
  have hs : ∀ l ∈ (vm.fetchSrcL (curr.code &&& 0x18#16) curr).2, l.level ≠ .error ∨ l = lineNeg := fun l hl =>
    hinfo l (fetchSrcL_info vm _ curr l hl)
  have cons : ∀ L : List Line, (∀ l ∈ L, l.level ≠ .error ∨ l = lineNeg) →
      ∀ l ∈ [lineClass curr] ++ L, l.level ≠ .error ∨ l = lineNeg := by
    intro L hL l hl
    rcases List.mem_append.1 hl with hl | hl
    · rw [List.mem_singleton] at hl; rw [hl]; exact h0
    · exact hL l hl
  have one : ∀ l ∈ [lineClass curr], l.level ≠ .error ∨ l = lineNeg := by simpa using h0
  unfold VM.executeInstrL
  simp only
  split
  · cases vm.ldValue b data curr with
    | ok v => exact cons _ (by simp [lineAcc, info])
    | err e => exact one
    | panic => exact one
  split
  · cases vm.ldxValue data curr with
    | ok v => exact cons _ (by simp [lineIdx, info])
    | err e => exact one
    | panic => exact one
  split
  · split <;> exact one
  split
  · split <;> exact one
  split
  · rcases hx : vm.aluL b curr with ⟨v | e | _, l⟩ <;> rw [hx] at ha <;> exact cons _ ha
  split
  · rcases hx : vm.jumpL curr with ⟨v | e | _, l⟩ <;> rw [hx] at hj <;> exact cons _ hj
  split
  · rcases hx : vm.fetchSrcL (curr.code &&& 0x18#16) curr with ⟨v | e | _, l⟩ <;> rw [hx] at hs
    · simp only [List.append_assoc]
      refine cons _ ?_
      intro l hl
      rcases List.mem_append.1 hl with hl | hl
      · exact hs l hl
      · rw [List.mem_singleton] at hl; rw [hl]; exact hinfo _ rfl
    · exact cons _ hs
    · exact cons _ hs
  split <;> exact one

/-- What the lines of one instruction can be. -/
theorem executeInstrL_lines (b : Build) (vm : VM) (data : RunData) (curr : SockFilter) :
    (∀ l ∈ (vm.executeInstrL b data curr).2.2, Inner l ∧ (l.level ≠ .debug ∨ l = lineClass curr)) ∧
      (lineNeg ∈ (vm.executeInstrL b data curr).2.2 ↔ (vm.executeInstrL b data curr).2.1 = .err (.UnsupportedInstruction 0x80#16)) := by
  have hc : Inner (lineClass curr) := inner_of _ (by unfold lineClass; simp [String.toList_append])
  have hcn : lineNeg ≠ lineClass curr := by simp [lineNeg, lineClass]
  have ha := aluL_lines b vm curr
  have hal := aluL_level b vm curr
  have hj := jumpL_lines vm curr
  have hjl := jumpL_level vm curr
  have hs := fetchSrcL_inner vm (curr.code &&& 0x18#16) curr
  have hsl := fetchSrcL_level vm (curr.code &&& 0x18#16) curr
  have hld := ldValue_not b vm data curr
  have hldx := ldxValue_not vm data curr
  unfold VM.executeInstrL
  simp only
  split
  · cases hv : vm.ldValue b data curr with
    | ok v =>
      have h1 : Inner (lineAcc v) := inner_of _ (by unfold lineAcc info; simp [String.toList_append])
      have h2 : lineNeg ≠ lineAcc v := by simp [lineNeg, lineAcc, info]
      have h3 : (lineAcc v).level ≠ .debug := by simp [lineAcc, info]
      simp [hc, hcn, h1, h2, h3]
    | err e => rw [hv] at hld; simp [hc, hcn]; intro h; exact hld _ (by rw [h])
    | panic => simp [hc, hcn]
  split
  · cases hv : vm.ldxValue data curr with
    | ok v =>
      have h1 : Inner (lineIdx v) := inner_of _ (by unfold lineIdx info; simp [String.toList_append])
      have h2 : lineNeg ≠ lineIdx v := by simp [lineNeg, lineIdx, info]
      have h3 : (lineIdx v).level ≠ .debug := by simp [lineIdx, info]
      simp [hc, hcn, h1, h2, h3]
    | err e => rw [hv] at hldx; simp [hc, hcn]; intro h; exact hldx _ (by rw [h])
    | panic => simp [hc, hcn]
  split
  · split <;> simp [hc, hcn]
  split
  · split <;> simp [hc, hcn]
  split
  · rcases hx : vm.aluL b curr with ⟨v | e | _, l⟩ <;> rw [hx] at ha hal <;> simp only at ha hal <;>
      refine ⟨?_, by simp [hcn, ha.2]⟩ <;> intro a hm <;> simp only [List.cons_append, List.nil_append, List.mem_cons] at hm <;>
      rcases hm with rfl | hm
    · exact ⟨hc, .inr rfl⟩
    · exact ⟨ha.1 a hm, .inl (hal a hm)⟩
    · exact ⟨hc, .inr rfl⟩
    · exact ⟨ha.1 a hm, .inl (hal a hm)⟩
    · exact ⟨hc, .inr rfl⟩
    · exact ⟨ha.1 a hm, .inl (hal a hm)⟩
  split
  · have hjn : lineNeg ∉ (vm.jumpL curr).2 := fun h => (hj.1 _ h).2 rfl
    rcases hx : vm.jumpL curr with ⟨v | e | _, l⟩ <;> rw [hx] at hj hjl hjn <;> simp only at hj hjl hjn
    all_goals
      refine ⟨?_, by simp [hcn, hjn]; try (intro h; exact hj.2 _ (by rw [h]))⟩
      intro a hm
      simp only [List.cons_append, List.nil_append, List.mem_cons] at hm
      rcases hm with rfl | hm
      · exact ⟨hc, .inr rfl⟩
      · exact ⟨(hj.1 a hm).1, .inl (hjl a hm)⟩
  split
  · have hsn : lineNeg ∉ (vm.fetchSrcL (curr.code &&& 0x18#16) curr).2 := fun h => (hs _ h).2 rfl
    have hse : ∀ c, (vm.fetchSrcL (curr.code &&& 0x18#16) curr).1 ≠ .err (.UnsupportedInstruction c) := by
      intro c; rw [fetchSrcL_fst]; unfold VM.fetchSrc; simp only; repeat' split
      all_goals simp
    rcases hx : vm.fetchSrcL (curr.code &&& 0x18#16) curr with ⟨v | e | _, l⟩ <;> rw [hx] at hs hsl hsn hse <;> simp only at hs hsl hsn hse
    · have h2 : lineNeg ≠ info ("Executing RET with 0x" ++ hex v.toNat) := by simp [lineNeg, info]
      refine ⟨?_, by simp [hcn, hsn, h2]⟩
      intro a hm
      simp only [List.cons_append, List.nil_append, List.mem_cons, List.mem_append, List.not_mem_nil, or_false] at hm
      rcases hm with rfl | hm | rfl
      · exact ⟨hc, .inr rfl⟩
      · exact ⟨(hs a hm).1, .inl (hsl a hm)⟩
      · exact ⟨inner_of _ (by unfold info; simp [String.toList_append]), .inl (by simp [info])⟩
    all_goals
      refine ⟨?_, by simp [hcn, hsn]; try (intro h; exact hse _ (by rw [h]))⟩
      intro a hm
      simp only [List.cons_append, List.nil_append, List.mem_cons] at hm
      rcases hm with rfl | hm
      · exact ⟨hc, .inr rfl⟩
      · exact ⟨(hs a hm).1, .inl (hsl a hm)⟩
  split
  · rename_i hm
    have h7 := (sw_07 _).1 hm
    rw [h7]
    simp [hc, hcn]
  · simp [hc, hcn]

theorem executeL_lines (b : Build) (vm : VM) (data : RunData) :
    (∀ l ∈ (vm.executeL b data).2.2, Inner l) ∧
      (lineNeg ∈ (vm.executeL b data).2.2 ↔ (vm.executeL b data).2.1 = .err (.UnsupportedInstruction 0x80#16)) := by
  unfold VM.executeL
  split
  · simp
  · rename_i curr _
    have h := executeInstrL_lines b { vm with pc := vm.pc + 1 } data curr
    have he : Inner (lineExecuting vm.pc curr) := inner_of _ (by unfold lineExecuting; simp [String.toList_append])
    refine ⟨?_, ?_⟩
    · intro a ha
      rcases List.mem_cons.1 ha with rfl | ha
      · exact he
      · exact (h.1 a ha).1
    · simp only [List.mem_cons, show (lineNeg = lineExecuting vm.pc curr) = False by simp [lineNeg, lineExecuting], false_or]
      exact h.2

/-- Exactly the first line of an instruction announces it. -/
theorem executeL_announces (b : Build) (vm : VM) (data : RunData) (curr : SockFilter) (h : vm.prog[vm.pc]? = some curr) :
    (vm.executeL b data).2.2.filter announces = [lineExecuting vm.pc curr] := by
  unfold VM.executeL
  rw [h]
  simp only
  rw [List.filter_cons_of_pos (by unfold announces lineExecuting Line.starts; simp [String.toList_append])]
  congr 1
  rw [List.filter_eq_nil_iff]
  intro a ha
  rcases ((executeInstrL_lines b { vm with pc := vm.pc + 1 } data curr).1 a ha).2 with h | rfl
  · unfold announces; simp [h]
  · unfold announces lineClass Line.starts; simp [String.toList_append, List.isPrefixOf]

/-! ## What a step depends on -/

/-- The program plays no part once the instruction is fetched. -/
theorem executeInstrL_prog (b : Build) (vm : VM) (data : RunData) (curr : SockFilter) (p : List SockFilter) :
    VM.executeInstrL b { vm with prog := p } data curr =
      ({ (vm.executeInstrL b data curr).1 with prog := p }, (vm.executeInstrL b data curr).2) := by
  have h1 : VM.ldValue b { vm with prog := p } data curr = vm.ldValue b data curr := rfl
  have h2 : VM.ldxValue { vm with prog := p } data curr = vm.ldxValue data curr := rfl
  have h3 : VM.aluL b { vm with prog := p } curr = vm.aluL b curr := rfl
  have h4 : VM.jumpL { vm with prog := p } curr = vm.jumpL curr := rfl
  have h5 : ∀ s, VM.fetchSrcL { vm with prog := p } s curr = vm.fetchSrcL s curr := fun _ => rfl
  unfold VM.executeInstrL
  rw [h1, h2, h3, h4, h5]
  simp only
  split
  · cases vm.ldValue b data curr <;> rfl
  split
  · cases vm.ldxValue data curr <;> rfl
  split
  · split <;> rfl
  split
  · split <;> rfl
  split
  · rcases vm.aluL b curr with ⟨v | e | _, l⟩ <;> rfl
  split
  · rcases vm.jumpL curr with ⟨v | e | _, l⟩ <;> rfl
  split
  · rcases vm.fetchSrcL (curr.code &&& 0x18#16) curr with ⟨v | e | _, l⟩ <;> rfl
  split <;> rfl

/-- Two failing loads of the same instruction in the same state fail alike. -/
theorem ldValue_fails (b : Build) (vm : VM) (d1 d2 : RunData) (curr : SockFilter) (h1 : ∀ v, vm.ldValue b d1 curr ≠ .ok v)
    (h2 : ∀ v, vm.ldValue b d2 curr ≠ .ok v) : vm.ldValue b d1 curr = vm.ldValue b d2 curr := by
  have hf : ∀ d1 d2 off size, (∀ v, fetchData d1 off size ≠ .ok v) → (∀ v, fetchData d2 off size ≠ .ok v) →
      fetchData d1 off size = fetchData d2 off size := by
    intro d1 d2 off size h1 h2
    unfold fetchData fetchU32 fetchU16 fetchU8 at *
    simp only at *
    split
    · rename_i hs
      simp only [hs, if_true] at h1 h2
      cases h3 : d1[off / 4]? with
      | none =>
        cases h4 : d2[off / 4]? with
        | none => rfl
        | some w => rw [h4] at h2; exact absurd rfl (h2 w)
      | some w => rw [h3] at h1; exact absurd rfl (h1 w)
    · rfl
  let R : Res Error (BitVec 32) → Res Error (BitVec 32) → Prop := fun x y => (∀ v, x ≠ .ok v) → (∀ v, y ≠ .ok v) → x = y
  have key : R (vm.ldValue b d1 curr) (vm.ldValue b d2 curr) := by
    unfold VM.ldValue
    refine ite_both2 (R := R) (fun _ _ => rfl) ?_
    refine ite_both2 (R := R) (hf _ _ _ _) ?_
    refine ite_both2 (R := R) ?_ ?_
    · cases addU32 b vm.idx curr.k with
      | ok off => exact hf _ _ _ _
      | err e => exact fun _ _ => rfl
      | panic => exact fun _ _ => rfl
    refine ite_both2 (R := R) (fun _ _ => rfl) ?_
    exact ite_both2 (R := R) (fun h => absurd rfl (h _)) (fun _ _ => rfl)
  exact key h1 h2

theorem ldxValue_fails (vm : VM) (d1 d2 : RunData) (curr : SockFilter) (h1 : ∀ v, vm.ldxValue d1 curr ≠ .ok v)
    (h2 : ∀ v, vm.ldxValue d2 curr ≠ .ok v) : vm.ldxValue d1 curr = vm.ldxValue d2 curr := by
  let R : Res Error (BitVec 32) → Res Error (BitVec 32) → Prop := fun x y => (∀ v, x ≠ .ok v) → (∀ v, y ≠ .ok v) → x = y
  have key : R (vm.ldxValue d1 curr) (vm.ldxValue d2 curr) := by
    unfold VM.ldxValue
    refine ite_both2 (R := R) (fun _ _ => rfl) ?_
    refine ite_both2 (R := R) (fun _ _ => rfl) ?_
    exact ite_both2 (R := R) (fun h => absurd rfl (h _)) (fun _ _ => rfl)
  exact key h1 h2

/-- What the log of a run has after the lines of a step: nothing after a failure, one line after a value. -/
def Tail (r : Res Error (Option (BitVec 32))) (s : List Line) : Prop :=
  match r with
  | .ok none => True
  | .ok (some v) => s = [lineReturned v]
  | .err _ => s = []
  | .panic => s = []

/-- A step in the same state, seen through the log. -/
theorem executeInstrL_same (b : Build) (vm : VM) (d1 d2 : RunData) (curr : SockFilter) (s1 s2 : List Line)
    (h1 : Tail (vm.executeInstrL b d1 curr).2.1 s1) (h2 : Tail (vm.executeInstrL b d2 curr).2.1 s2)
    (h : (vm.executeInstrL b d1 curr).2.2 ++ s1 = (vm.executeInstrL b d2 curr).2.2 ++ s2) :
    vm.executeInstrL b d1 curr = vm.executeInstrL b d2 curr ∧ s1 = s2 := by
  suffices hs : vm.executeInstrL b d1 curr = vm.executeInstrL b d2 curr by
    refine ⟨hs, ?_⟩
    rw [hs] at h
    exact List.append_cancel_left h
  have hl := ldValue_fails b vm d1 d2 curr
  have hlx := ldxValue_fails vm d1 d2 curr
  unfold VM.executeInstrL at *
  simp only at *
  by_cases c1 : BitVec.setWidth 32 (curr.code &&& 7#16) = BPF_LD
  · simp only [c1, if_true] at *
    cases hv1 : vm.ldValue b d1 curr <;> cases hv2 : vm.ldValue b d2 curr <;> rw [hv1] at h1 h hl <;> rw [hv2] at h2 h hl <;>
      simp only [Tail] at h1 h2 h ⊢
    all_goals try subst h1
    all_goals try subst h2
    all_goals try (simp at h; done)
    · simp only [List.cons_append, List.nil_append, List.cons.injEq, true_and] at h
      rw [lineAcc_inj h.1]
    all_goals
      have := hl (by simp) (by simp)
      first | (cases this; done) | (cases this; rfl)
  simp only [c1, if_false] at *
  by_cases c2 : BitVec.setWidth 32 (curr.code &&& 7#16) = BPF_LDX
  · simp only [c2, if_true] at *
    cases hv1 : vm.ldxValue d1 curr <;> cases hv2 : vm.ldxValue d2 curr <;> rw [hv1] at h1 h hlx <;> rw [hv2] at h2 h hlx <;>
      simp only [Tail] at h1 h2 h ⊢
    all_goals try subst h1
    all_goals try subst h2
    all_goals try (simp at h; done)
    · simp only [List.cons_append, List.nil_append, List.cons.injEq, true_and] at h
      rw [lineIdx_inj h.1]
    all_goals
      have := hlx (by simp) (by simp)
      first | (cases this; done) | (cases this; rfl)
  simp only [c2, if_false]

theorem executeL_error (b : Build) (vm : VM) (data : RunData) :
    ∀ l ∈ (vm.executeL b data).2.2, l.level ≠ .error ∨ l = lineNeg := by
  unfold VM.executeL
  split
  · simp
  · intro l hl
    rcases List.mem_cons.1 hl with rfl | hl
    · exact .inl (by simp [lineExecuting])
    · exact executeInstrL_error _ _ _ _ l hl

/-- What comes after one step of a run. -/
def After (b : Build) (d : RunData) (x : VM × Res Error (Option (BitVec 32)) × List Line) (s : List Line) (v : VM)
    (r : Res Error (BitVec 32)) : Prop :=
  match x.2.1 with
  | .ok none => ExecL b d x.1 s v r
  | .ok (some y) => v = x.1 ∧ r = .ok y
  | .err e => v = x.1 ∧ r = .err e
  | .panic => v = x.1 ∧ r = .panic

theorem execL_inv {b : Build} {d : RunData} {w v : VM} {l : List Line} {r : Res Error (BitVec 32)} (h : ExecL b d w l v r) :
    (w.prog.length ≤ w.pc ∧ l = [] ∧ v = w ∧ r = .ok 0) ∨
      (w.pc < w.prog.length ∧ l ≠ [] ∧ ∃ s, l = (w.executeL b d).2.2 ++ s ∧ Tail (w.executeL b d).2.1 s ∧ After b d (w.executeL b d) s v r) := by
  have nonempty : ∀ {vm : VM}, vm.pc < vm.prog.length → ∀ s, (vm.executeL b d).2.2 ++ s ≠ [] := by
    intro vm hl s
    unfold VM.executeL
    rw [List.getElem?_eq_getElem hl]
    simp
  induction h with
  | off vm h => exact .inl ⟨h, rfl, rfl, rfl⟩
  | value vm vm' r l h1 h2 =>
    have hn := nonempty h1
    rw [h2] at hn ⊢
    exact .inr ⟨h1, hn _, _, rfl, rfl, rfl, rfl⟩
  | error vm vm' e l h1 h2 =>
    have hn := nonempty h1
    rw [h2] at hn ⊢
    exact .inr ⟨h1, by simpa using hn [], [], by simp, rfl, rfl, rfl⟩
  | panics vm vm' l h1 h2 =>
    have hn := nonempty h1
    rw [h2] at hn ⊢
    exact .inr ⟨h1, by simpa using hn [], [], by simp, rfl, rfl, rfl⟩
  | next vm vm' vm'' l out r h1 h2 h3 _ =>
    have hn := nonempty h1
    rw [h2] at hn ⊢
    exact .inr ⟨h1, hn _, out, rfl, trivial, h3⟩

/-- Two runs from the same state with the same log. -/
theorem execL_same {b : Build} {d1 d2 : RunData} {vm v1 v2 : VM} {l : List Line} {r1 r2 : Res Error (BitVec 32)} {p : List SockFilter}
    (h1 : ExecL b d1 vm l v1 r1) (h2 : ExecL b d2 { vm with prog := p } l v2 r2) : r1 = r2 ∧ v2 = { v1 with prog := p } := by
  have key : ∀ {vm : VM} {q : List SockFilter} {s1 s2 : List Line}, vm.pc < vm.prog.length → vm.pc < q.length →
      Tail (vm.executeL b d1).2.1 s1 → Tail (VM.executeL b { vm with prog := q } d2).2.1 s2 →
      (vm.executeL b d1).2.2 ++ s1 = (VM.executeL b { vm with prog := q } d2).2.2 ++ s2 →
      VM.executeL b { vm with prog := q } d2 = ({ (vm.executeL b d1).1 with prog := q }, (vm.executeL b d1).2) ∧ s1 = s2 := by
    intro vm q s1 s2 hl hq t1 t2 h
    obtain ⟨i, hi⟩ : ∃ i, vm.prog[vm.pc]? = some i := ⟨_, List.getElem?_eq_getElem hl⟩
    obtain ⟨j, hj⟩ : ∃ j, q[vm.pc]? = some j := ⟨_, List.getElem?_eq_getElem hq⟩
    unfold VM.executeL at *
    simp only [hi, hj] at *
    simp only [List.cons_append, List.cons.injEq] at h
    obtain ⟨hij, h⟩ := h
    obtain ⟨_, rfl⟩ := lineExecuting_inj hij
    have hp := executeInstrL_prog b { vm with pc := vm.pc + 1 } d2 i q
    simp only at hp
    rw [hp] at t2 h ⊢
    obtain ⟨e, hs⟩ := executeInstrL_same b { vm with pc := vm.pc + 1 } d1 d2 i s1 s2 t1 t2 h
    rw [e]
    exact ⟨rfl, hs⟩
  have both : ∀ {vm v1 : VM} {l : List Line} {r1 : Res Error (BitVec 32)} {v2 : VM} {r2 : Res Error (BitVec 32)},
      ExecL b d1 vm l v1 r1 → ExecL b d2 { vm with prog := p } l v2 r2 →
      (r1 = r2 ∧ v2 = { v1 with prog := p }) ∨
        ∃ s, (vm.executeL b d1).2.1 = .ok none ∧ ExecL b d2 { (vm.executeL b d1).1 with prog := p } s v2 r2 ∧ l = (vm.executeL b d1).2.2 ++ s := by
    intro vm v1 l r1 v2 r2 h1 h2
    rcases execL_inv h1 with ⟨a1, a2, rfl, rfl⟩ | ⟨a1, a2, s1, a3, a4, a5⟩
    · rcases execL_inv h2 with ⟨b1, b2, rfl, rfl⟩ | ⟨b1, b2, _⟩
      · exact .inl ⟨rfl, rfl⟩
      · exact absurd a2 b2
    · rcases execL_inv h2 with ⟨b1, b2, rfl, rfl⟩ | ⟨b1, b2, s2, b3, b4, b5⟩
      · exact absurd b2 a2
      · obtain ⟨k1, k2⟩ := key a1 b1 a4 b4 (a3.symm.trans b3)
        rw [k1] at b5
        unfold After at a5 b5
        simp only at a5 b5
        cases hx : (vm.executeL b d1).2.1 with
        | ok o =>
          cases o with
          | none =>
            rw [hx] at b5
            subst k2
            exact .inr ⟨s1, rfl, b5, a3⟩
          | some y =>
            rw [hx] at a5 b5
            rw [a5.1, a5.2, b5.1, b5.2]; exact .inl ⟨rfl, rfl⟩
        | err e =>
          rw [hx] at a5 b5
          rw [a5.1, a5.2, b5.1, b5.2]; exact .inl ⟨rfl, rfl⟩
        | panic =>
          rw [hx] at a5 b5
          rw [a5.1, a5.2, b5.1, b5.2]; exact .inl ⟨rfl, rfl⟩
  induction h1 generalizing v2 r2 with
  | off vm h =>
    rcases both (.off vm h) h2 with h' | ⟨s, hh, _⟩
    · exact h'
    · unfold VM.executeL at hh
      rw [List.getElem?_eq_none (by omega)] at hh
      cases hh
  | value vm vm' r l h3 h4 => exact (both (.value vm vm' r l h3 h4) h2).elim id fun ⟨s, hh, _⟩ => by rw [h4] at hh; cases hh
  | error vm vm' e l h3 h4 => exact (both (.error vm vm' e l h3 h4) h2).elim id fun ⟨s, hh, _⟩ => by rw [h4] at hh; cases hh
  | panics vm vm' l h3 h4 => exact (both (.panics vm vm' l h3 h4) h2).elim id fun ⟨s, hh, _⟩ => by rw [h4] at hh; cases hh
  | next vm vm' vm'' l out r h3 h4 h5 ih =>
    rcases both (.next vm vm' vm'' l out r h3 h4 h5) h2 with h | ⟨s, _, h', hs⟩
    · exact h
    · rw [h4] at h' hs
      have := List.append_cancel_left hs
      subst this
      exact ih h'

end Bpfvm
