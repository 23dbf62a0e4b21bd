import Verif.Proofs.Path
import Verif.Props.Log
import Verif.Props.Agree
import Verif.Props.Cost
import Verif.Props.Result

/-!
# C108: the log of the VM shows the kernel's way through a filter, and which promise let a call pass
-/
set_option autoImplicit false

namespace Props
open Spec Pledge Bpfvm Kernel

/-- C108: a run of the kernel that returns a value has a way through the program, and no other run has one. -/
theorem C108_way (m0 : Nat → BitVec 32) (p : Prog) (w : List (BitVec 32)) (v : BitVec 32) :
    Kernel.run m0 p w = some v ↔ ∃ l, Walk p w (startRegs m0) l v :=
  ⟨fun h => walk_exists p w v _ (startRegs m0) rfl h, fun ⟨l, hl⟩ => (walk_run p w _ l v hl).1⟩

/-- C108: there is only one way; it begins at the first instruction, goes only forward, stays inside the program, and has as many
instructions as the run costs. -/
theorem C108_only (m0 : Nat → BitVec 32) (p : Prog) (d : SeccompData) (v : BitVec 32) (l : List Nat)
    (h : Walk p d.words (startRegs m0) l v) :
    (∀ l' v', Walk p d.words (startRegs m0) l' v' → l' = l ∧ v' = v) ∧ l.head? = some 0 ∧ l.Pairwise (· < ·) ∧ (∀ a ∈ l, a < p.length) ∧
      cost m0 p d = some l.length := by
  obtain ⟨h1, h2, h3, h4, h5⟩ := walk_run p d.words _ l v h
  refine ⟨fun l' v' h' => walk_unique p d.words _ l' l v' v h' h, h4, h3, fun a ha => (h5 a ha).2, ?_⟩
  unfold cost
  show (countFrom p d.words (startRegs m0)).map Prod.snd = _
  rw [h2]
  rfl

/-- C108: the way can be read from the lines: different ways are announced differently. -/
theorem C108_readable (p q : Prog) (l l' : List Nat) (h : ∀ a ∈ l, a < p.length) (h' : ∀ a ∈ l', a < q.length)
    (he : announced p l = announced q l') : l = l' ∧ l.map (fun a => p[a]?) = l'.map (fun a => q[a]?) := by
  induction l generalizing l' with
  | nil =>
    cases l' with
    | nil => exact ⟨rfl, rfl⟩
    | cons a' l' =>
      unfold announced at he
      rw [List.filterMap_cons, List.getElem?_eq_getElem (h' a' (by simp))] at he
      simp at he
  | cons a l ih =>
    unfold announced at he
    rw [List.filterMap_cons, List.getElem?_eq_getElem (h a (by simp))] at he
    cases l' with
    | nil => simp at he
    | cons a' l' =>
      rw [List.filterMap_cons, List.getElem?_eq_getElem (h' a' (by simp))] at he
      simp only [Option.map_some, List.cons.injEq] at he
      have h1 : a = a' ∧ p[a]'(h a (by simp)) = q[a']'(h' a' (by simp)) := lineExecuting_inj he.1
      have h2 := ih l' (fun x hx => h x (by simp [hx])) (fun x hx => h' x (by simp [hx])) he.2
      refine ⟨by rw [h1.1, h2.1], ?_⟩
      rw [List.map_cons, List.map_cons, h2.2, List.getElem?_eq_getElem (h a (by simp)), List.getElem?_eq_getElem (h' a' (by simp)), h1.2]

/-- What a VM with program `p` announces: its own execution. -/
theorem shown_of (b : Build) (p : Prog) (data : RunData) (hl : p.length ≤ 65535) (trace : List Nat) (vm' : VM) (r : Res Error (BitVec 32))
    (h : Exec b data ⟨0, 0, 0, Vector.replicate MEMSIZE 0, p⟩ trace vm' r) :
    shown b p data = some (announced p trace) ∧ runProg b p data = some r := by
  have hnew : VM.new p = .ok ⟨0, 0, 0, Vector.replicate MEMSIZE 0, p⟩ := by
    unfold VM.new
    rw [if_neg (by omega)]
  obtain ⟨l, h3, h4⟩ := exec_announces h
  obtain ⟨l', vm'', r', h5, _, h6, h7⟩ := run_log b ⟨0, 0, 0, Vector.replicate MEMSIZE 0, p⟩ data
  have e1 := execL_log h3 []
  have e2 := execL_log h5 []
  have e3 : VM.reset ⟨0, 0, 0, Vector.replicate MEMSIZE 0, p⟩ = ⟨0, 0, 0, Vector.replicate MEMSIZE 0, p⟩ := rfl
  rw [e3, e1] at e2
  simp only [Option.some.injEq, Prod.mk.injEq, List.nil_append] at e2
  obtain ⟨-, q2, q3⟩ := e2
  unfold shown runProg
  rw [hnew]
  constructor
  · simp only
    rw [h7, ← q3, List.filter_cons_of_neg (by simp [announces, lineStart, info])]
    have := congrArg (List.filterMap id) h4
    rw [List.filterMap_map, List.filterMap_map] at this
    simp only [Function.comp_def, id] at this
    rw [List.filterMap_some] at this
    rw [this]
    rfl
  · simp only [h6, Option.map_some, q2]

theorem agree_start (b : Build) (p : Prog) (hacc : accepts p = true) (m0 : Nat → BitVec 32) (d : SeccompData) (rest : List (BitVec 32)) :
    p.length ≤ 65535 ∧
    (NoDeparture b (d.words ++ rest).length p d.words (startRegs m0) → ∃ v l vm', Walk p d.words (startRegs m0) l v ∧
        Exec b (d.words ++ rest) ⟨0, 0, 0, Vector.replicate MEMSIZE 0, p⟩ l vm' (.ok v)) ∧
      (∀ rd dep, FirstDeparture b (d.words ++ rest).length p d.words (startRegs m0) rd dep →
        ∃ l1, (∀ l v, Walk p d.words (startRegs m0) l v → (l1 ++ [rd.pc]) <+: l) ∧
          (∀ e, dep = .error e → ∃ vm', Exec b (d.words ++ rest) ⟨0, 0, 0, Vector.replicate MEMSIZE 0, p⟩ (l1 ++ [rd.pc]) vm' (.err e)) ∧
          (dep = .panic → ∃ vm', Exec b (d.words ++ rest) ⟨0, 0, 0, Vector.replicate MEMSIZE 0, p⟩ (l1 ++ [rd.pc]) vm' .panic)) := by
  have hacc' := hacc
  simp only [accepts, Bool.and_eq_true, decide_eq_true_eq] at hacc'
  obtain ⟨⟨⟨⟨⟨hl, hl'⟩, -⟩, -⟩, hm⟩, -⟩ := hacc'
  refine ⟨by unfold maxInsns at hl'; omega, ?_⟩
  exact agree_path b p (d.words ++ rest) d.words hacc (fun j hj => by rw [List.getElem?_append_left (by exact hj)]) (Nat.le_refl 16)
    p.length ⟨0, 0, 0, Vector.replicate MEMSIZE 0, p⟩ (startRegs m0) (by simp)
    ⟨fun _ => ~~~0, 0, hl, rfl, hm, rfl, rfl, rfl, fun j _ h => by simp at h⟩

/-- C108: on every program that the kernel accepts, if no instruction that the kernel executes on this record departs (C89), the log shows
exactly the kernel's way. The slice may be longer than the record. -/
theorem C108_log (b : Build) (p : Prog) (hacc : accepts p = true) (m0 : Nat → BitVec 32) (d : SeccompData) (rest : List (BitVec 32))
    (h : NoDeparture b (d.words ++ rest).length p d.words (startRegs m0)) :
    ∃ l v, Walk p d.words (startRegs m0) l v ∧ shown b p (d.words ++ rest) = some (announced p l) := by
  obtain ⟨hlen, h1, -⟩ := agree_start b p hacc m0 d rest
  obtain ⟨v, l, vm', h2, h3⟩ := h1 h
  exact ⟨l, v, h2, (shown_of b p _ hlen l vm' _ h3).1⟩

/-- C108: if the first departure is an error or a panic, the log shows a first part of the kernel's way, and the last instruction it
shows is the one that departs. -/
theorem C108_departs (b : Build) (p : Prog) (hacc : accepts p = true) (m0 : Nat → BitVec 32) (d : SeccompData) (rest : List (BitVec 32))
    (rd : Regs) (dep : Departure) (h : FirstDeparture b (d.words ++ rest).length p d.words (startRegs m0) rd dep)
    (ho : dep ≠ .otherState) :
    ∃ l1, shown b p (d.words ++ rest) = some (announced p (l1 ++ [rd.pc])) ∧
      ∀ l v, Walk p d.words (startRegs m0) l v → (l1 ++ [rd.pc]) <+: l := by
  obtain ⟨hlen, -, h1⟩ := agree_start b p hacc m0 d rest
  obtain ⟨l1, h2, h3, h4⟩ := h1 rd dep h
  refine ⟨l1, ?_, h2⟩
  cases dep with
  | error e =>
    obtain ⟨vm', hx⟩ := h3 e rfl
    exact (shown_of b p _ hlen _ vm' _ hx).1
  | panic =>
    obtain ⟨vm', hx⟩ := h4 rfl
    exact (shown_of b p _ hlen _ vm' _ hx).1
  | otherState => exact absurd rfl ho

section
variable {b : Build} {ids : Ids} {ps : List Promise} {v : SeccompReturn} {prog : Prog} (h : promisesToProg b ids ps v = .ok prog)
  (m0 : Nat → BitVec 32) (d : SeccompData)
include h

theorem pledge_walk : ∃ x, Walk prog d.words (startRegs m0) (evL d.words 0 prog 0 0) x ∧ ev d.words prog 0 0 = .ret x := by
  rw [promisesToProg_eq] at h
  cases h
  exact ⟨_, walk_of_ev d.words _ _ [] 0 (startRegs m0) rfl rfl _ (ev_prog_verdict ids d ps v.toU32), ev_prog_verdict ids d ps v.toU32⟩

/-- C108: for the filters of this library the log shows the kernel's way on every record, in every build, as long as there is a VM at all
(65535 instructions; the kernel installs at most 4096). -/
theorem C108_pledge (b' : Build) (rest : List (BitVec 32)) (hs : filterSize ps ≤ 65535) :
    ∃ l x, Walk prog d.words (startRegs m0) l x ∧ shown b' prog (d.words ++ rest) = some (announced prog l) ∧
      runProg b' prog (d.words ++ rest) = some (.ok x) := by
  obtain ⟨x, h1, h2⟩ := pledge_walk h m0 d
  have hlen : prog.length ≤ 65535 := by
    rw [promisesToProg_eq] at h
    cases h
    rw [size_progOf]
    exact hs
  obtain ⟨g1, g2⟩ := ev_more d.words rest 0 prog 0 0 x h2
  obtain ⟨vm', h3⟩ := exec_of_ev b' (d.words ++ rest) prog [] 0 ⟨0, 0, 0, Vector.replicate MEMSIZE 0, prog⟩ rfl rfl x g1
  have h4 : evL (d.words ++ rest) ([] : List SockFilter).length prog 0 (0 : BitVec 32) = evL d.words 0 prog 0 0 := g2
  simp only [h4] at h3
  exact ⟨_, x, h1, shown_of b' prog _ hlen _ vm' _ h3⟩

/-- C108: where the way ends says why. It ends at the instruction 2 exactly for calls of another architecture; in the code of promise number
`i` exactly if this promise is the first of the list that lets the call pass; at the last instruction exactly if the call is a violation. -/
theorem C108_ends (l : List Nat) (x : BitVec 32) (hl : Walk prog d.words (startRegs m0) l x) :
    ∃ a, l.getLast? = some a ∧ (a = 2 ↔ d.arch ≠ X86_64) ∧
      (∀ i, i ≤ ps.length → ((block ps i).1 ≤ a ∧ a < (block ps i).2 ↔ AdmittedBy ids ps d i)) ∧
      (a = filterSize ps - 1 ↔ Denies ids ps d) := by
  obtain ⟨x', h1, h2⟩ := pledge_walk h m0 d
  obtain ⟨rfl, rfl⟩ := walk_unique _ _ _ _ _ _ _ hl h1
  rw [promisesToProg_eq] at h
  cases h
  obtain ⟨a, h3, h4, h5, h6⟩ := last_progOf ids ps v.toU32 d
  have hsz : ∀ qs : List Promise, 4 + (body ids (allFilters qs)).length = filterSize qs - 1 := by
    intro qs
    have := size_progOf ids qs 0
    rw [progOf, List.length_append, List.length_append] at this
    have e : header.length = 4 := rfl
    have e' : ([⟨0x6, 0, 0, 0⟩] : List SockFilter).length = 1 := rfl
    omega
  simp only [hsz] at h6
  rw [size_progOf] at h4
  have h7 : ∀ qs : List Promise, 7 ≤ filterSize qs := fun qs => by unfold filterSize; omega
  have := h7 ps
  refine ⟨a, h3, ?_, ?_, ?_⟩
  · constructor
    · rintro rfl hx
      have := (h6 hx).1
      omega
    · exact h5
  · intro i hi
    by_cases hx : d.arch = X86_64
    · obtain ⟨h8, h9⟩ := h6 hx
      have hall : ∀ j, Allows ids (ps.take j) d ↔ a < filterSize (ps.take j) - 1 := by
        intro j
        rw [allows_iff, ← h9 j]
        simp [hx]
      unfold AdmittedBy
      cases i with
      | zero =>
        rw [hall]
        have e : filterSize (ps.take 0) = 7 := by simp [filterSize]
        simp only [block, e]
        constructor
        · rintro ⟨-, g⟩; exact ⟨by omega, g, by omega⟩
        · rintro ⟨-, g, -⟩; exact ⟨h8, g⟩
      | succ i =>
        simp only [block]
        constructor
        · rintro ⟨g1, g2⟩
          refine ⟨hi, (hall _).2 g2, fun j hj ha => ?_⟩
          have h10 : Allowed ids (ps.take i) d := allowed_take (show j ≤ i by omega) ((allows_iff _ _ _).1 ha).2
          have := (h9 i).1 h10
          omega
        · rintro ⟨-, g1, g2⟩
          have := g2 i (by omega)
          rw [hall] at g1 this
          omega
    · have h2 := h5 hx
      subst h2
      constructor
      · rintro ⟨g1, -⟩
        cases i with
        | zero => simp [block] at g1
        | succ i => simp only [block] at g1; have := h7 (ps.take i); omega
      · rintro ⟨-, g, -⟩
        exact absurd ((allows_iff _ _ _).1 g).1 hx
  · rw [denies_iff]
    constructor
    · intro ha
      have hx : d.arch = X86_64 := Classical.byContradiction fun hx => by have := h5 hx; omega
      refine ⟨hx, fun hall => ?_⟩
      have := ((h6 hx).2 ps.length).1 (by rwa [List.take_length])
      rw [List.take_length] at this
      omega
    · rintro ⟨hx, hn⟩
      have := mt ((h6 hx).2 ps.length).2 (by rwa [List.take_length])
      rw [List.take_length] at this
      omega

end

theorem filterSize_mono (ps : List Promise) {i j : Nat} (h : i ≤ j) : filterSize (ps.take i) ≤ filterSize (ps.take j) := by
  have e : ps.take j = ps.take i ++ (ps.drop i).take (j - i) := by
    rw [show j = i + (j - i) by omega, List.take_add]
    simp
  rw [e]
  unfold filterSize
  rw [List.map_append, List.sum_append]
  omega

theorem block_end (ps : List Promise) (i : Nat) : (block ps i).2 = filterSize (ps.take i) - 1 := by
  cases i with
  | zero => simp [block, filterSize]
  | succ i => rfl

/-- C108: the parts do not overlap and leave no gap: from the fifth instruction to the last but one, each address belongs to exactly one
promise (or to exit). -/
theorem C108_blocks (ps : List Promise) (a : Nat) (h : 4 ≤ a) (h' : a < filterSize ps - 1) :
    ∃ i, i ≤ ps.length ∧ ((block ps i).1 ≤ a ∧ a < (block ps i).2) ∧
      ∀ j, j ≤ ps.length → (block ps j).1 ≤ a ∧ a < (block ps j).2 → j = i := by
  have ex : ∀ k, k ≤ ps.length → a < filterSize (ps.take k) - 1 → ∃ i, i ≤ k ∧ ((block ps i).1 ≤ a ∧ a < (block ps i).2) := by
    intro k
    induction k with
    | zero => intro _ hk; exact ⟨0, by omega, h, by rw [block_end]; exact hk⟩
    | succ k ih =>
      intro hk hlt
      by_cases hc : a < filterSize (ps.take k) - 1
      · obtain ⟨i, h1, h2⟩ := ih (by omega) hc
        exact ⟨i, by omega, h2⟩
      · exact ⟨k + 1, by omega, by simp only [block]; omega, hlt⟩
  have apart : ∀ i j, i < j → (block ps i).2 ≤ (block ps j).1 := by
    intro i j hij
    cases j with
    | zero => omega
    | succ j =>
      rw [block_end]
      have := filterSize_mono ps (show i ≤ j by omega)
      simp only [block]
      omega
  obtain ⟨i, h1, h2⟩ := ex ps.length (by omega) (by rwa [List.take_length])
  refine ⟨i, h1, h2, fun j _ hj => ?_⟩
  rcases Nat.lt_trichotomy i j with hij | hij | hij
  · have := apart i j hij
    omega
  · exact hij.symm
  · have := apart j i hij
    omega

/-- Not vacuous: the first instruction after the header, with one promise. -/
example := C108_blocks [.StdIO] 4 (by decide) (by decide +kernel)

/-- Allow if the record has 64 bytes, otherwise kill. -/
def askLength : Prog :=
  [⟨0x80#16, 0, 0, 0#32⟩, ⟨0x15#16, 0, 1, 64#32⟩, ⟨0x06#16, 0, 0, 0x7fff0000#32⟩, ⟨0x06#16, 0, 0, 0x80000000#32⟩]

/-- C108, the limit: with a departure to another state the log shows a way that the kernel does not go. The program asks for the length of
the record; the VM is given just the record. -/
theorem C108_other_way (b : Build) (m0 : Nat → BitVec 32) (d : SeccompData) :
    ∃ p : Prog, accepts p = true ∧ Walk p d.words (startRegs m0) [0, 1, 2] 0x7fff0000 ∧
      shown b p d.words = some (announced p [0, 1, 3]) := by
  refine ⟨askLength, by decide +kernel, ?_, ?_⟩
  · refine .next _ ⟨1, 64#32, 0, m0⟩ _ _ _ rfl (by rfl) (.next _ ⟨2, 64#32, 0, m0⟩ _ _ _ rfl (by simp [Kernel.step, Kernel.cond]) (.done _ _ _ rfl (by rfl)))
  · refine (shown_of b _ d.words (by decide) [0, 1, 3] ⟨4, 16, 0, Vector.replicate MEMSIZE 0, askLength⟩ (.ok 0x80000000) ?_).1
    refine .next _ ⟨1, 16, 0, Vector.replicate MEMSIZE 0, askLength⟩ _ _ _ (by decide) ?_
      (.next _ ⟨3, 16, 0, Vector.replicate MEMSIZE 0, askLength⟩ _ _ _ (by decide) ?_ (.value _ _ _ (by decide) ?_))
    · rfl
    · simp [askLength, VM.execute, VM.executeInstr, VM.jumpAmount, Libc.BPF_LD, Libc.BPF_LDX, Libc.BPF_ST, Libc.BPF_STX, Libc.BPF_ALU,
          Libc.BPF_JMP, Libc.BPF_JA, Libc.BPF_JEQ]
    · rfl

/-! Concrete cases. -/

theorem rmdir_third (ids : Ids) : AdmittedBy ids [.StdIO, .RPath, .CPath] (mkCall 84 []) 3 := by
  have hc : IsCall (mkCall 84 []) 84 := ⟨rfl, rfl⟩
  have hr : ∀ p, ruleAt ids (mkCall 84 []) p 84 ↔ False := by intro p; simp [ruleAt]
  refine ⟨by decide, ?_, ?_⟩
  · rw [allows_call hc (by decide)]
    exact ⟨.CPath, by decide, .inl (by decide)⟩
  · intro j hj
    rw [allows_call hc (by decide)]
    rintro ⟨p, h1, h2⟩
    rw [hr, or_false] at h2
    have : ∀ p ∈ freeOf 84, p = .CPath := by decide +kernel
    have := this p h2
    subst this
    match j, hj with
    | 0, _ => cases h1
    | 1, _ => revert h1; decide
    | 2, _ => revert h1; decide

/-- `C108_ends`: under these three promises `rmdir` (84) passes thanks to number 3 (`cpath`), whose code is at 344 to 400, and there the way
ends; with only the first two it is a violation. -/
example (b : Build) (ids : Ids) (v : SeccompReturn) (prog : Prog) (h : promisesToProg b ids [.StdIO, .RPath, .CPath] v = .ok prog) :
    ∃ l x a, Walk prog (mkCall 84 []).words (startRegs fun _ => 0) l x ∧ l.getLast? = some a ∧ 344 ≤ a ∧ a < 401 := by
  obtain ⟨x, h1, -⟩ := pledge_walk h (fun _ => 0) (mkCall 84 [])
  obtain ⟨a, h2, -, h3, -⟩ := C108_ends h (fun _ => 0) (mkCall 84 []) _ x h1
  have := (h3 3 (by decide)).2 (rmdir_third ids)
  have e : block [.StdIO, .RPath, .CPath] 3 = (344, 401) := by decide +kernel
  rw [e] at this
  exact ⟨_, x, a, h1, h2, this⟩

/-- `C108_pledge`, `C108_ends`: the whole way of a call of another architecture. -/
example (b : Build) (ids : Ids) (v : SeccompReturn) (prog : Prog) (h : promisesToProg b ids [.StdIO] v = .ok prog) :
    ∃ x, Walk prog { mkCall 1 [] with arch := 0x40000003 }.words (startRegs fun _ => 0) [0, 1, 2] x ∧
      (shown b prog { mkCall 1 [] with arch := 0x40000003 }.words).map (·.map Line.text) =
        some ["Executing line 0x0: sock_filter { code: 20, jt: 0, jf: 0, k: 4 }",
          "Executing line 0x1: sock_filter { code: 15, jt: 1, jf: 0, k: c000003e }",
          "Executing line 0x2: sock_filter { code: 6, jt: 0, jf: 0, k: 80000000 }"] := by
  obtain ⟨l, x, h1, h2, -⟩ := C108_pledge h (fun _ => 0) { mkCall 1 [] with arch := 0x40000003 } b [] (by decide +kernel)
  rw [promisesToProg_eq] at h
  cases h
  have hw := walk_of_ev { mkCall 1 [] with arch := 0x40000003 }.words _ _ [] 0 (startRegs fun _ => 0) rfl rfl _
    (ev_prog_verdict ids { mkCall 1 [] with arch := 0x40000003 } [.StdIO] v.toU32)
  have e : evL { mkCall 1 [] with arch := 0x40000003 }.words ([] : List SockFilter).length (progOf ids [.StdIO] v.toU32) 0
      (startRegs fun _ => 0).A = [0, 1, 2] := by rfl
  rw [e] at hw
  obtain ⟨rfl, -⟩ := walk_unique _ _ _ _ _ _ _ h1 hw
  rw [List.append_nil] at h2
  refine ⟨x, h1, ?_⟩
  rw [h2]
  rfl

theorem visits_later (p : Prog) (w : List (BitVec 32)) (r rd : Regs) (h : Visits p w r rd) : r.pc ≤ rd.pc := by
  induction h with
  | start => exact Nat.le_refl _
  | next a a' j _ h1 h2 ih => exact Nat.le_trans ih (Nat.le_of_lt (step_later w j a a' h2))

/-- `C108_departs`: a program that negates. The log ends at the negation, where the kernel goes on. -/
example (b : Build) (m0 : Nat → BitVec 32) (d : SeccompData) (p : Prog)
    (hp : p = [⟨0x00#16, 0, 0, 5#32⟩, ⟨0x84#16, 0, 0, 0#32⟩, ⟨0x16#16, 0, 0, 0#32⟩]) :
    accepts p = true ∧ FirstDeparture b (d.words ++ []).length p d.words (startRegs m0) ⟨1, 5, 0, m0⟩ (.error (.UnsupportedInstruction 0x80)) ∧
      Walk p d.words (startRegs m0) [0, 1, 2] (-5#32) := by
  subst hp
  refine ⟨by decide +kernel, ⟨⟨.next _ _ _ .start rfl rfl, _, rfl, rfl⟩, ?_⟩, ?_⟩
  · rintro r dep ⟨h1, i, h2, h3⟩
    rcases visits_cases _ _ _ _ h1 with rfl | ⟨j, r', e1, e2, e3⟩
    · cases h2
      simp [departure, overflows] at h3
    · cases e1
      cases e2
      rcases visits_cases _ _ _ _ e3 with rfl | ⟨j, r', e4, e5, e6⟩
      · exact Nat.le_refl _
      · have h5 := step_later _ _ _ _ e5
        have h6 := visits_later _ _ _ _ e6
        exact Nat.le_of_lt (Nat.lt_of_lt_of_le h5 h6)
  · exact .next _ ⟨1, 5, 0, m0⟩ _ _ _ rfl rfl (.next _ ⟨2, -5#32, 0, m0⟩ _ _ _ rfl rfl (.done _ _ _ rfl rfl))

end Props
