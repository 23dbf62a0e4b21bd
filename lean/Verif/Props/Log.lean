import Verif.Proofs.Log
import Verif.Props.Vm

/-!
# C107: what can be read from the log of the bundled VM
-/
set_option autoImplicit false

namespace Props
open Bpfvm Spec Libc

theorem run_log (b : Build) (vm : VM) (data : RunData) :
    ∃ l vm' r, ExecL b data vm.reset l vm' r ∧ vm.runL b data = some (vm', r, lineStart :: l) ∧ vm.run b data = some (vm', r) ∧
      runLog b vm data = lineStart :: l := by
  obtain ⟨l, vm', r, h1, h2⟩ := execL_exists b data _ vm.reset (Nat.le_refl _)
  have h3 : vm.runL b data = some (vm', r, lineStart :: l) := h2 [lineStart]
  exact ⟨l, vm', r, h1, h3, execL_exec h1, by unfold runLog; rw [h3]; rfl⟩

/-- C107: the log changes nothing: with and without it, `run` and `execute` give the same result and leave the same machine. -/
theorem C107_silent (b : Build) (vm : VM) (data : RunData) :
    (vm.runL b data).map (fun x => (x.1, x.2.1)) = vm.run b data ∧
      ((vm.executeL b data).1, (vm.executeL b data).2.1) = vm.execute b data := by
  refine ⟨?_, executeL_fst b vm data⟩
  obtain ⟨l, vm', r, _, h2, h3, _⟩ := run_log b vm data
  rw [h2, h3]; rfl

theorem execL_inner {b : Build} {data : RunData} {vm vm' : VM} {l : List Line} {r : Res Error (BitVec 32)} (h : ExecL b data vm l vm' r) :
    (∀ a ∈ l, a ≠ lineStart) ∧ (∀ x, lineReturned x ∈ l → r = .ok x ∧ l.getLast? = some (lineReturned x)) ∧
      (∀ x, r = .ok x → lineReturned x ∈ l ∨ x = 0 ∧ vm'.prog.length ≤ vm'.pc) := by
  induction h with
  | off vm h => exact ⟨by simp, by simp, fun x hx => .inr ⟨by cases hx; rfl, h⟩⟩
  | value vm vm' r l h1 h2 =>
    have hl := (executeL_lines b vm data).1
    rw [h2] at hl
    refine ⟨?_, ?_, ?_⟩
    · intro a ha
      rcases List.mem_append.1 ha with ha | ha
      · exact (hl a ha).1
      · rw [List.mem_singleton] at ha
        rw [ha]
        exact fun h => absurd (congrArg (fun l : Line => l.text.toList.take 2) h) (by
          unfold lineReturned lineStart info; simp [String.toList_append])
    · intro x hx
      rcases List.mem_append.1 hx with hx | hx
      · exact absurd rfl ((hl _ hx).2 x)
      · rw [List.mem_singleton] at hx
        have := lineReturned_inj hx
        subst this
        exact ⟨rfl, by simp⟩
    · intro x hx
      cases hx
      exact .inl (by simp)
  | error vm vm' e l h1 h2 =>
    have hl := (executeL_lines b vm data).1
    rw [h2] at hl
    exact ⟨fun a ha => (hl a ha).1, fun x hx => absurd rfl ((hl _ hx).2 x), by simp⟩
  | panics vm vm' l h1 h2 =>
    have hl := (executeL_lines b vm data).1
    rw [h2] at hl
    exact ⟨fun a ha => (hl a ha).1, fun x hx => absurd rfl ((hl _ hx).2 x), by simp⟩
  | next vm vm' vm'' l out r h1 h2 _ ih =>
    have hl := (executeL_lines b vm data).1
    rw [h2] at hl
    refine ⟨?_, ?_, ?_⟩
    · intro a ha
      rcases List.mem_append.1 ha with ha | ha
      · exact (hl a ha).1
      · exact ih.1 a ha
    · intro x hx
      rcases List.mem_append.1 hx with hx | hx
      · exact absurd rfl ((hl _ hx).2 x)
      · have := ih.2.1 x hx
        exact ⟨this.1, by rw [List.getLast?_append, this.2]; rfl⟩
    · intro x hx
      rcases ih.2.2 x hx with h | h
      · exact .inl (by simp [h])
      · exact .inr h

/-- C107: the last line. A run that says "returned value 0x…" returned that value, and the line is the last one; a run that returned a
value and does not say so ran off the end of its program and returned 0. -/
theorem C107_returned (b : Build) (vm : VM) (data : RunData) (x : BitVec 32) :
    (info ("execute() returned value 0x" ++ hex x.toNat ++ "; terminating") ∈ runLog b vm data →
      runResult b vm data = some (.ok x) ∧
        (runLog b vm data).getLast? = some (info ("execute() returned value 0x" ++ hex x.toNat ++ "; terminating"))) ∧
    (runResult b vm data = some (.ok x) →
      info ("execute() returned value 0x" ++ hex x.toNat ++ "; terminating") ∈ runLog b vm data ∨
        x = 0 ∧ ∃ vm', vm.run b data = some (vm', .ok 0) ∧ vm'.prog.length ≤ vm'.pc) := by
  show (lineReturned x ∈ _ → _ ∧ _ = some (lineReturned x)) ∧ (_ → lineReturned x ∈ _ ∨ _)
  obtain ⟨l, vm', r, h1, h2, h3, h4⟩ := run_log b vm data
  have hi := execL_inner h1
  have hns : lineReturned x ≠ lineStart := fun h => absurd (congrArg (fun l : Line => l.text.toList.take 2) h) (by
    unfold lineReturned lineStart info; simp [String.toList_append])
  rw [h4]
  unfold runResult
  rw [h3]
  constructor
  · intro h
    rcases List.mem_cons.1 h with h | h
    · exact absurd h hns
    · have := hi.2.1 x h
      refine ⟨by rw [this.1]; rfl, ?_⟩
      rw [List.getLast?_cons, this.2]; rfl
  · intro h
    simp only [Option.map_some, Option.some.injEq] at h
    subst h
    rcases hi.2.2 x rfl with h | h
    · exact .inl (by simp [h])
    · obtain ⟨rfl, h⟩ := h
      exact .inr ⟨rfl, vm', rfl, h⟩

theorem execL_neg {b : Build} {data : RunData} {vm vm' : VM} {l : List Line} {r : Res Error (BitVec 32)} (h : ExecL b data vm l vm' r) :
    lineNeg ∈ l ↔ r = .err (.UnsupportedInstruction 0x80#16) := by
  induction h with
  | off vm h => simp
  | value vm vm' r l h1 h2 =>
    have hl := (executeL_lines b vm data).2
    rw [h2] at hl
    simp only [List.mem_append, hl, List.mem_singleton]
    simp [lineNeg, lineReturned, info]
  | error vm vm' e l h1 h2 =>
    have hl := (executeL_lines b vm data).2
    rw [h2] at hl
    simp only [hl, Res.err.injEq]
  | panics vm vm' l h1 h2 =>
    have hl := (executeL_lines b vm data).2
    rw [h2] at hl
    simp only [hl, reduceCtorEq]
  | next vm vm' vm'' l out r h1 h2 _ ih =>
    have hl := (executeL_lines b vm data).2
    rw [h2] at hl
    simp only [List.mem_append, hl, reduceCtorEq, false_or, ih]

theorem execL_error {b : Build} {data : RunData} {vm vm' : VM} {l : List Line} {r : Res Error (BitVec 32)} (h : ExecL b data vm l vm' r) :
    ∀ a ∈ l, a.level ≠ .error ∨ a = lineNeg := by
  induction h with
  | off vm h => simp
  | value vm vm' r l h1 h2 =>
    have hl := executeL_error b vm data
    rw [h2] at hl
    intro a ha
    rcases List.mem_append.1 ha with ha | ha
    · exact hl a ha
    · rw [List.mem_singleton] at ha
      rw [ha]; exact .inl (by simp [lineReturned, info])
  | error vm vm' e l h1 h2 =>
    have hl := executeL_error b vm data
    rw [h2] at hl
    exact hl
  | panics vm vm' l h1 h2 =>
    have hl := executeL_error b vm data
    rw [h2] at hl
    exact hl
  | next vm vm' vm'' l out r h1 h2 _ ih =>
    have hl := executeL_error b vm data
    rw [h2] at hl
    intro a ha
    rcases List.mem_append.1 ha with ha | ha
    · exact hl a ha
    · exact ih a ha

/-- C107: errors. A run logs an error exactly if it ends with "Unsupported BPF Instruction; 128." -/
theorem C107_errors (b : Build) (vm : VM) (data : RunData) :
    (∃ l ∈ runLog b vm data, l.level = .error) ↔ runResult b vm data = some (.err (.UnsupportedInstruction 128#16)) := by
  obtain ⟨l, vm', r, h1, h2, h3, h4⟩ := run_log b vm data
  rw [h4]
  unfold runResult
  rw [h3]
  simp only [Option.map_some, Option.some.injEq]
  rw [← execL_neg h1]
  constructor
  · rintro ⟨a, ha, hl⟩
    rcases List.mem_cons.1 ha with rfl | ha
    · simp [lineStart, info] at hl
    · rcases execL_error h1 a ha with h | rfl
      · exact absurd hl h
      · exact ha
  · intro h
    exact ⟨lineNeg, by simp [h], rfl⟩

theorem exec_announces {b : Build} {data : RunData} {vm vm' : VM} {trace : List Nat} {r : Res Error (BitVec 32)}
    (h : Exec b data vm trace vm' r) :
    ∃ l, ExecL b data vm l vm' r ∧
      (l.filter announces).map some = trace.map fun p => vm.prog[p]?.map (lineExecuting p) := by
  have one : ∀ (vm : VM), vm.pc < vm.prog.length →
      ((vm.executeL b data).2.2.filter announces).map some = [vm.prog[vm.pc]?.map (lineExecuting vm.pc)] := by
    intro vm hl
    rw [executeL_announces b vm data _ (List.getElem?_eq_getElem hl), List.getElem?_eq_getElem hl]
    rfl
  have hret : ∀ x, announces (lineReturned x) = false := by intro x; simp [announces, lineReturned, info]
  induction h with
  | off vm h => exact ⟨[], .off vm h, rfl⟩
  | value vm vm' r h1 h2 =>
    have hf := executeL_fst b vm data
    rw [h2, Prod.mk.injEq] at hf
    refine ⟨_, .value vm vm' r (vm.executeL b data).2.2 h1 (by rw [← hf.1, ← hf.2]), ?_⟩
    rw [List.filter_append, List.map_append, one vm h1]
    simp [hret]
  | error vm vm' e h1 h2 =>
    have hf := executeL_fst b vm data
    rw [h2, Prod.mk.injEq] at hf
    exact ⟨_, .error vm vm' e (vm.executeL b data).2.2 h1 (by rw [← hf.1, ← hf.2]), by rw [one vm h1]; rfl⟩
  | panics vm vm' h1 h2 =>
    have hf := executeL_fst b vm data
    rw [h2, Prod.mk.injEq] at hf
    exact ⟨_, .panics vm vm' (vm.executeL b data).2.2 h1 (by rw [← hf.1, ← hf.2]), by rw [one vm h1]; rfl⟩
  | next vm vm' vm'' trace r h1 h2 _ ih =>
    have hf := executeL_fst b vm data
    rw [h2, Prod.mk.injEq] at hf
    obtain ⟨l, h3, h4⟩ := ih
    refine ⟨_, .next vm vm' vm'' (vm.executeL b data).2.2 l r h1 (by rw [← hf.1, ← hf.2]) h3, ?_⟩
    have hp := execute_prog b vm data
    rw [h2] at hp
    simp only at hp
    rw [List.filter_append, List.map_append, one vm h1, h4, hp]
    rfl

/-- C107: the lines "Executing line" show the program counters the run goes through, in order, each with the instruction there. -/
theorem C107_lines (b : Build) (vm : VM) (data : RunData) :
    ∃ trace vm' r, Exec b data vm.reset trace vm' r ∧ vm.run b data = some (vm', r) ∧
      ((runLog b vm data).filter announces).map some = trace.map fun p => vm.prog[p]?.map fun i =>
        ⟨.debug, "Executing line 0x" ++ hex p ++ ": " ++ i.debug⟩ := by
  obtain ⟨trace, vm', r, h1, h2, _⟩ := C15_run_terminates b vm data
  obtain ⟨l, h3, h4⟩ := exec_announces h2
  refine ⟨trace, vm', r, h2, h1, ?_⟩
  obtain ⟨l', vm'', r', h5, _, h6, h7⟩ := run_log b vm data
  have hu : l = l' := by
    have e1 := execL_log h3 []
    have e2 := execL_log h5 []
    rw [e1] at e2
    simp only [Option.some.injEq, Prod.mk.injEq, List.nil_append] at e2
    exact e2.2.2
  rw [h7, ← hu, List.filter_cons_of_neg (by simp [announces, lineStart, info])]
  exact h4

/-- C107: the log determines the run. Two runs that log the same have the same result and leave the same registers and memory, whatever
their programs and data are. -/
theorem C107_determines (b : Build) (vm1 vm2 : VM) (d1 d2 : RunData) (h : runLog b vm1 d1 = runLog b vm2 d2) :
    runResult b vm1 d1 = runResult b vm2 d2 ∧ runState b vm1 d1 = runState b vm2 d2 := by
  obtain ⟨l1, v1, r1, h1, _, h2, h3⟩ := run_log b vm1 d1
  obtain ⟨l2, v2, r2, h4, _, h5, h6⟩ := run_log b vm2 d2
  rw [h3, h6] at h
  obtain rfl : l1 = l2 := (List.cons.inj h).2
  have hr : vm2.reset = { vm1.reset with prog := vm2.prog } := rfl
  rw [hr] at h4
  obtain ⟨rfl, rfl⟩ := execL_same h1 h4
  unfold runResult runState
  rw [h2, h5]
  exact ⟨rfl, rfl⟩

theorem split_log {a1 a2 t1 t2 : List Line} (h1 : ∀ a ∈ a1, a ≠ lineStart) (h2 : ∀ a ∈ a2, a ≠ lineStart)
    (h3 : ∀ a, t1.head? = some a → a = lineStart) (h4 : ∀ a, t2.head? = some a → a = lineStart) (h : a1 ++ t1 = a2 ++ t2) :
    a1 = a2 ∧ t1 = t2 := by
  induction a1 generalizing a2 with
  | nil =>
    cases a2 with
    | nil => exact ⟨rfl, h⟩
    | cons a a2 =>
      exact absurd (h3 a (by rw [show t1 = a :: a2 ++ t2 from h]; rfl)) (h2 a (by simp))
  | cons a a1 ih =>
    cases a2 with
    | nil => exact absurd (h4 a (by rw [show t2 = a :: a1 ++ t1 from h.symm]; rfl)) (h1 a (by simp))
    | cons c a2 =>
      obtain ⟨rfl, h'⟩ := List.cons.inj h
      obtain ⟨rfl, ht⟩ := ih (fun x hx => h1 x (by simp [hx])) (a2 := a2) (fun x hx => h2 x (by simp [hx])) h'
      exact ⟨rfl, ht⟩

theorem logs_head (b : Build) (rs : List (VM × RunData)) :
    ∀ a, (rs.flatMap fun r => runLog b r.1 r.2).head? = some a → a = lineStart := by
  cases rs with
  | nil => simp
  | cons r rs =>
    obtain ⟨l, _, _, _, _, _, h⟩ := run_log b r.1 r.2
    rw [List.flatMap_cons, h]
    intro a ha
    simpa using ha.symm

/-- C107: many runs in a row. The log written by any number of runs, one after the other into the same file, tells how many runs there were,
what each of them logged and what each of them returned. -/
theorem C107_many (b : Build) (rs1 rs2 : List (VM × RunData))
    (h : (rs1.flatMap fun r => runLog b r.1 r.2) = rs2.flatMap fun r => runLog b r.1 r.2) :
    (rs1.map fun r => runLog b r.1 r.2) = (rs2.map fun r => runLog b r.1 r.2) ∧
      (rs1.map fun r => runResult b r.1 r.2) = rs2.map fun r => runResult b r.1 r.2 := by
  induction rs1 generalizing rs2 with
  | nil =>
    cases rs2 with
    | nil => exact ⟨rfl, rfl⟩
    | cons r rs =>
      obtain ⟨l, _, _, _, _, _, hl⟩ := run_log b r.1 r.2
      rw [List.flatMap_cons, hl] at h
      cases h
  | cons r1 rs1 ih =>
    obtain ⟨l1, _, _, e1, _, _, hl1⟩ := run_log b r1.1 r1.2
    cases rs2 with
    | nil =>
      rw [List.flatMap_cons, hl1] at h
      cases h
    | cons r2 rs2 =>
      obtain ⟨l2, _, _, e2, _, _, hl2⟩ := run_log b r2.1 r2.2
      rw [List.flatMap_cons, List.flatMap_cons, hl1, hl2, List.cons_append, List.cons_append] at h
      obtain ⟨h, ht⟩ := split_log (execL_inner e1).1 (execL_inner e2).1 (logs_head b rs1) (logs_head b rs2) (List.cons.inj h).2
      obtain ⟨i1, i2⟩ := ih rs2 ht
      have hh : runLog b r1.1 r1.2 = runLog b r2.1 r2.2 := by rw [hl1, hl2, h]
      simp only [List.map_cons]
      rw [i1, i2, hh, (C107_determines b _ _ _ _ hh).1]
      exact ⟨rfl, rfl⟩

/-- C107: the level `info` is not enough. A program that stores and falls off its end and a program with an unsupported instruction both say
only "Starting VM" at that level; one returns 0, the other an error. -/
theorem C107_info_not_enough (b : Build) (data : RunData) (vm1 vm2 : VM) (h1 : vm1.prog = [⟨0x02#16, 0, 0, 0⟩])
    (h2 : vm2.prog = [⟨0x07#16, 0, 0, 0⟩]) :
    (runLog b vm1 data).filter (upTo .info) = [⟨.info, "Starting VM"⟩] ∧ runResult b vm1 data = some (.ok 0) ∧
    (runLog b vm2 data).filter (upTo .info) = [⟨.info, "Starting VM"⟩] ∧
      runResult b vm2 data = some (.err (.UnsupportedInstruction 7)) := by
  obtain ⟨p1, a1, i1, m1, q1⟩ := vm1
  obtain ⟨p2, a2, i2, m2, q2⟩ := vm2
  simp only at h1 h2
  subst h1 h2
  refine ⟨?_, ?_, ?_, ?_⟩
  · unfold runLog VM.runL
    rw [VM.loopL]
    simp [VM.reset, VM.executeL, VM.executeInstrL, BPF_LD, BPF_LDX, BPF_ST, MEMSIZE, BPF_MEMWORDS]
    rw [loopL_done _ _ _ _ (by simp)]
    rfl
  · unfold runResult VM.run
    rw [VM.loop]
    simp [VM.reset, VM.execute, VM.executeInstr, BPF_LD, BPF_LDX, BPF_ST, MEMSIZE, BPF_MEMWORDS]
    rw [VM.loop]
    simp
  · unfold runLog VM.runL
    rw [VM.loopL]
    simp [VM.reset, VM.executeL, VM.executeInstrL, BPF_LD, BPF_LDX, BPF_ST, BPF_STX, BPF_ALU, BPF_JMP, BPF_RET, BPF_MISC]
    rfl
  · unfold runResult VM.run
    rw [VM.loop]
    simp [VM.reset, VM.execute, VM.executeInstr, BPF_LD, BPF_LDX, BPF_ST, BPF_STX, BPF_ALU, BPF_JMP, BPF_RET, BPF_MISC]

/-- Not vacuous: two machines. -/
example (vm : VM) := C107_info_not_enough ⟨true⟩ [] { vm with prog := [⟨0x02, 0, 0, 0⟩] } { vm with prog := [⟨0x07, 0, 0, 0⟩] } rfl rfl

/-- C107: the name of JSET. The line of a JSET starts with "JGE: " in every run. -/
theorem C107_jset (b : Build) (vm : VM) (data : RunData) (i : SockFilter) (h : vm.prog[vm.pc]? = some i) (hc : i.code = 0x45#16 ∨ i.code = 0x4d#16) :
    ∃ l, (vm.executeL b data).2.2.filter (upTo .info) = [l] ∧ Line.starts l "JGE: " := by
  unfold VM.executeL
  rw [h]
  obtain ⟨c, jt, jf, k⟩ := i
  rcases hc with rfl | rfl <;>
    simp only [VM.executeInstrL, VM.jumpL] <;>
    simp only [show ((0x45#16 : BitVec 16) &&& 0x7#16).setWidth 32 = BPF_JMP from rfl, show ((0x4d#16 : BitVec 16) &&& 0x7#16).setWidth 32 = BPF_JMP from rfl,
      show ((0x45#16 : BitVec 16) &&& 0xf0#16).setWidth 32 = BPF_JSET from rfl, show ((0x4d#16 : BitVec 16) &&& 0xf0#16).setWidth 32 = BPF_JSET from rfl] <;>
    simp only [show BPF_JMP ≠ BPF_LD by decide, show BPF_JMP ≠ BPF_LDX by decide, show BPF_JMP ≠ BPF_ST by decide,
      show BPF_JMP ≠ BPF_STX by decide, show BPF_JMP ≠ BPF_ALU by decide, show BPF_JSET ≠ BPF_JA by decide,
      show BPF_JSET ≠ BPF_JEQ by decide, show BPF_JSET ≠ BPF_JGT by decide, show BPF_JSET ≠ BPF_JGE by decide, if_false, if_true] <;>
    cases hx : decide ((vm.acc &&& k) > 0) <;>
    simp only [decide_eq_true_eq, decide_eq_false_iff_not] at hx <;>
    simp only [hx, if_true, if_false] <;>
    exact ⟨_, rfl, by simp [lineJump, info, Line.starts, String.toList_append]⟩

/-- Not vacuous: JSET with a constant. -/
example (vm : VM) := C107_jset ⟨true⟩ { vm with prog := [⟨0x45, 0, 0, 1⟩], pc := 0 } [] ⟨0x45, 0, 0, 1⟩ rfl (.inl rfl)

/-- C107: loads report the value the register has afterwards. -/
theorem C107_loads (b : Build) (vm vm' : VM) (data : RunData) (i : SockFilter) (hi : vm.prog[vm.pc]? = some i)
    (h : vm.execute b data = (vm', .ok none)) :
    (i.code &&& 0x7#16 = 0#16 → reports b vm data = ["Loaded value 0x" ++ hex vm'.acc.toNat ++ " into ACC"]) ∧
    (i.code &&& 0x7#16 = 1#16 → reports b vm data = ["Loaded value 0x" ++ hex vm'.idx.toNat ++ " into IDX"]) := by
  rw [← executeL_fst, Prod.mk.injEq] at h
  unfold reports
  unfold VM.executeL at h ⊢
  rw [hi] at h ⊢
  constructor
  · intro hc
    unfold VM.executeInstrL at h ⊢
    simp only [hc] at h ⊢
    rw [if_pos (by decide)] at h ⊢
    cases hv : VM.ldValue b { vm with pc := vm.pc + 1 } data i with
    | ok v =>
      simp only [hv] at h ⊢
      rw [← h.1]
      rfl
    | err e => simp [hv] at h
    | panic => simp [hv] at h
  · intro hc
    unfold VM.executeInstrL at h ⊢
    simp only [hc] at h ⊢
    rw [if_neg (by decide), if_pos (by decide)] at h ⊢
    cases hv : VM.ldxValue { vm with pc := vm.pc + 1 } data i with
    | ok v =>
      simp only [hv] at h ⊢
      rw [← h.1]
      rfl
    | err e => simp [hv] at h
    | panic => simp [hv] at h

/-- C107: arithmetic reports its name and its true operand, even if it panics then. -/
theorem C107_arithmetic (b : Build) (vm : VM) (data : RunData) (i : SockFilter) (hi : vm.prog[vm.pc]? = some i)
    (hc : i.code &&& 0x7#16 = 4#16) (name : String) (hn : (i.code &&& 0xf0#16, name) ∈ aluNames) :
    (i.code &&& 0x08#16 = 0#16 →
      reports b vm data = ["Src is K: 0x" ++ hex i.k.toNat, "Executing " ++ name ++ " with 0x" ++ hex i.k.toNat]) ∧
    (i.code &&& 0x08#16 = 8#16 →
      reports b vm data = ["Src is IDX: 0x" ++ hex vm.idx.toNat, "Executing " ++ name ++ " with 0x" ++ hex vm.idx.toNat]) := by
  have hl : reports b vm data = ((VM.aluL b { vm with pc := vm.pc + 1 } i).2.filter fun l => l.level = .info).map Line.text := by
    unfold reports VM.executeL
    rw [hi]
    unfold VM.executeInstrL
    simp only [hc]
    rw [if_neg (by decide), if_neg (by decide), if_neg (by decide), if_neg (by decide), if_pos (by decide)]
    cases hr : VM.aluL b { vm with pc := vm.pc + 1 } i with
    | mk r l => cases r <;> rfl
  rw [hl]
  unfold VM.aluL VM.fetchSrcL
  simp only [aluNames, List.mem_cons, Prod.mk.injEq, List.not_mem_nil, or_false] at hn
  constructor <;> intro hs <;> simp only [hs] <;>
    rcases hn with ⟨ho, rfl⟩ | ⟨ho, rfl⟩ | ⟨ho, rfl⟩ | ⟨ho, rfl⟩ | ⟨ho, rfl⟩ | ⟨ho, rfl⟩ | ⟨ho, rfl⟩ | ⟨ho, rfl⟩ | ⟨ho, rfl⟩ | ⟨ho, rfl⟩ <;>
    simp only [ho] <;>
    simp [BPF_K, BPF_X, BPF_ADD, BPF_SUB, BPF_MUL, BPF_DIV, BPF_OR, BPF_AND, BPF_LSH, BPF_RSH, BPF_MOD, BPF_XOR, info]

/-- C107: jumps report how far they go: the distance printed is the one the program counter moves beyond the next instruction. -/
theorem C107_jumps (b : Build) (vm vm' : VM) (data : RunData) (i : SockFilter) (hi : vm.prog[vm.pc]? = some i)
    (h : vm.execute b data = (vm', .ok none)) (hc : i.code &&& 0x7#16 = 5#16) :
    (i.code &&& 0xf0#16 = 0#16 ∧ reports b vm data = ["JA with 0x" ++ hex (vm'.pc - (vm.pc + 1))]) ∨
    ∃ name yes no, (i.code &&& 0xf0#16, name, yes, no) ∈ jumpNames ∧ ∃ sign, (sign = yes ∧ vm'.pc = vm.pc + 1 + i.jt.toNat ∨
        sign = no ∧ vm'.pc = vm.pc + 1 + i.jf.toNat) ∧
      reports b vm data = [name ++ ": 0x" ++ hex vm.acc.toNat ++ " " ++ sign ++ " 0x" ++ hex i.k.toNat ++ " -> 0x" ++
        hex (vm'.pc - (vm.pc + 1))] := by
  obtain ⟨n, l, hj, hp, hl⟩ : ∃ n l, VM.jumpL { vm with pc := vm.pc + 1 } i = (.ok n, l) ∧ vm'.pc = vm.pc + 1 + n ∧
      reports b vm data = (l.filter fun l => l.level = .info).map Line.text := by
    rw [← executeL_fst, Prod.mk.injEq] at h
    unfold reports
    unfold VM.executeL at h ⊢
    rw [hi] at h ⊢
    unfold VM.executeInstrL at h ⊢
    simp only [hc] at h ⊢
    rw [if_neg (by decide), if_neg (by decide), if_neg (by decide), if_neg (by decide), if_neg (by decide), if_pos (by decide)] at h ⊢
    cases hr : VM.jumpL { vm with pc := vm.pc + 1 } i with
    | mk r l =>
      rw [hr] at h
      cases r with
      | ok n => exact ⟨n, l, rfl, by rw [← h.1], rfl⟩
      | err e => simp at h
      | panic => simp at h
  have hop : ∀ x : BitVec 16, (i.code &&& 0xf0#16).setWidth 32 = x.setWidth 32 → i.code &&& 0xf0#16 = x := by
    intro x hx
    have := congrArg (BitVec.setWidth 16) hx
    simpa using this
  have hd : vm'.pc - (vm.pc + 1) = n := by omega
  rw [hl, hd]
  unfold VM.jumpL at hj
  simp only at hj
  split at hj
  · rename_i h0
    refine .inl ⟨hop 0 h0, ?_⟩
    cases hj
    rfl
  · right
    split at hj
    · rename_i h0
      refine ⟨"JEQ", "==", "!=", by rw [hop 0x10#16 h0]; decide, ?_⟩
      split at hj <;> cases hj
      · exact ⟨_, .inl ⟨rfl, hp⟩, by simp [lineJump, info, String.append_assoc]⟩
      · exact ⟨_, .inr ⟨rfl, hp⟩, by simp [lineJump, info, String.append_assoc]⟩
    split at hj
    · rename_i h0
      refine ⟨"JGT", ">", "! >", by rw [hop 0x20#16 h0]; decide, ?_⟩
      split at hj <;> cases hj
      · exact ⟨_, .inl ⟨rfl, hp⟩, by simp [lineJump, info, String.append_assoc]⟩
      · exact ⟨_, .inr ⟨rfl, hp⟩, by simp [lineJump, info, String.append_assoc]⟩
    split at hj
    · rename_i h0
      refine ⟨"JGE", ">=", "! >=", by rw [hop 0x30#16 h0]; decide, ?_⟩
      split at hj <;> cases hj
      · exact ⟨_, .inl ⟨rfl, hp⟩, by simp [lineJump, info, String.append_assoc]⟩
      · exact ⟨_, .inr ⟨rfl, hp⟩, by simp [lineJump, info, String.append_assoc]⟩
    split at hj
    · rename_i h0
      refine ⟨"JGE", "&", "! &", by rw [hop 0x40#16 h0]; decide, ?_⟩
      split at hj <;> cases hj
      · exact ⟨_, .inl ⟨rfl, hp⟩, by simp [lineJump, info, String.append_assoc]⟩
      · exact ⟨_, .inr ⟨rfl, hp⟩, by simp [lineJump, info, String.append_assoc]⟩
    · cases hj

/-- C107: a return reports its value twice: where it is from and what it is. -/
theorem C107_returns (b : Build) (vm vm' : VM) (data : RunData) (v : BitVec 32) (i : SockFilter) (hi : vm.prog[vm.pc]? = some i)
    (h : vm.execute b data = (vm', .ok (some v))) :
    ∃ source, (i.code &&& 0x18#16, source) ∈ [(0x00#16, "K"), (0x08#16, "IDX"), (0x10#16, "ACC")] ∧
      reports b vm data = ["Src is " ++ source ++ ": 0x" ++ hex v.toNat, "Executing RET with 0x" ++ hex v.toNat] := by
  obtain ⟨l, hf, hl⟩ : ∃ l, VM.fetchSrcL { vm with pc := vm.pc + 1 } (i.code &&& 0x18#16) i = (.ok v, l) ∧
      reports b vm data = ((l ++ [info ("Executing RET with 0x" ++ hex v.toNat)]).filter fun l => l.level = .info).map Line.text := by
    rw [← executeL_fst, Prod.mk.injEq] at h
    unfold reports
    unfold VM.executeL at h ⊢
    rw [hi] at h ⊢
    unfold VM.executeInstrL at h ⊢
    simp only at h ⊢
    split at h
    · split at h <;> simp at h
    split at h
    · split at h <;> simp at h
    split at h
    · split at h <;> simp at h
    split at h
    · split at h <;> simp at h
    split at h
    · split at h <;> simp at h
    split at h
    · split at h <;> simp at h
    split at h
    · rename_i h1 h2 h3 h4 h5 h6 h7
      rw [if_neg h1, if_neg h2, if_neg h3, if_neg h4, if_neg h5, if_neg h6, if_pos h7]
      cases hr : VM.fetchSrcL { vm with pc := vm.pc + 1 } (i.code &&& 0x18#16) i with
      | mk r l =>
        rw [hr] at h
        cases r with
        | ok n =>
          obtain rfl : n = v := by simpa using h.2
          exact ⟨l, rfl, rfl⟩
        | err e => simp at h
        | panic => simp at h
    · split at h <;> simp at h
  have hop : ∀ x : BitVec 16, (i.code &&& 0x18#16).setWidth 32 = x.setWidth 32 → i.code &&& 0x18#16 = x := by
    intro x hx
    have := congrArg (BitVec.setWidth 16) hx
    simpa using this
  rw [hl]
  unfold VM.fetchSrcL at hf
  simp only at hf
  split at hf
  · rename_i h0
    cases hf; exact ⟨"K", by rw [hop 0x00#16 h0]; decide, rfl⟩
  split at hf
  · rename_i h0
    cases hf; exact ⟨"IDX", by rw [hop 0x08#16 h0]; decide, rfl⟩
  split at hf
  · rename_i h0
    cases hf; exact ⟨"ACC", by rw [hop 0x10#16 h0]; decide, rfl⟩
  · cases hf

/-! ## Concrete cases -/

/-- Load a constant, test a bit, return. -/
def logged : VM := { pc := 0, acc := 0, idx := 0, mem := Vector.replicate MEMSIZE 0, prog := [⟨0x00#16, 0, 0, 0xab#32⟩, ⟨0x45#16, 1, 0, 0x80#32⟩,
  ⟨0x06#16, 0, 0, 1#32⟩, ⟨0x06#16, 0, 0, 0x7fff0000#32⟩] }

/-- `C107_returned`, `C107_lines`: the whole log of a run that loads, jumps and returns. -/
example (b : Build) (data : RunData) : (runLog b logged data).map Line.text =
    ["Starting VM",
     "Executing line 0x0: sock_filter { code: 0, jt: 0, jf: 0, k: ab }", "Executing instruction 0x0", "Loaded value 0xab into ACC",
     "Executing line 0x1: sock_filter { code: 45, jt: 1, jf: 0, k: 80 }", "Executing instruction 0x5", "JGE: 0xab & 0x80 -> 0x1",
     "Executing line 0x3: sock_filter { code: 6, jt: 0, jf: 0, k: 7fff0000 }", "Executing instruction 0x6", "Src is K: 0x7fff0000",
     "Executing RET with 0x7fff0000", "execute() returned value 0x7fff0000; terminating"] := by
  have s1 : logged.reset.executeL b data = ({ logged with pc := 1, acc := 0xab#32 }, .ok none,
      [lineExecuting 0 ⟨0x00#16, 0, 0, 0xab#32⟩, lineClass ⟨0x00#16, 0, 0, 0xab#32⟩, lineAcc 0xab#32]) := rfl
  have s2 : VM.executeL b { logged with pc := 1, acc := 0xab#32 } data = ({ logged with pc := 3, acc := 0xab#32 }, .ok none,
      [lineExecuting 1 ⟨0x45#16, 1, 0, 0x80#32⟩, lineClass ⟨0x45#16, 1, 0, 0x80#32⟩, lineJump "JGE" 0xab#32 " & " 0x80#32 1#8]) := by
    simp [VM.executeL, logged, VM.executeInstrL, VM.jumpL, BPF_LD, BPF_LDX, BPF_ST, BPF_STX, BPF_ALU, BPF_JMP, BPF_JA, BPF_JEQ, BPF_JGT,
      BPF_JGE, BPF_JSET]
  have s3 : VM.executeL b { logged with pc := 3, acc := 0xab#32 } data = ({ logged with pc := 4, acc := 0xab#32 }, .ok (some 0x7fff0000#32),
      [lineExecuting 3 ⟨0x06#16, 0, 0, 0x7fff0000#32⟩, lineClass ⟨0x06#16, 0, 0, 0x7fff0000#32⟩, info ("Src is K: 0x" ++ hex 0x7fff0000),
        info ("Executing RET with 0x" ++ hex 0x7fff0000)]) := rfl
  have h := ExecL.next _ _ _ _ _ _ (by decide) s1 (.next _ _ _ _ _ _ (by decide) s2 (.value _ _ _ _ (by decide) s3))
  unfold runLog VM.runL
  rw [execL_log h]
  decide +kernel

/-- `C107_arithmetic`: a division by a zero index register says so before it panics. -/
example (b : Build) (data : RunData) (vm : VM) (h : vm.prog = [⟨0x3c#16, 0, 0, 7#32⟩]) (h0 : vm.pc = 0) (hx : vm.idx = 0) :
    reports b vm data = ["Src is IDX: 0x0", "Executing DIV with 0x0"] := by
  have := (C107_arithmetic b vm data ⟨0x3c#16, 0, 0, 7#32⟩ (by rw [h, h0]; rfl) rfl "DIV" (by decide)).2 (by decide)
  rw [this, hx]
  decide

/-- `C107_loads`, `C107_jumps`, `C107_returns`: the steps of the run above meet their hypotheses. -/
example (b : Build) (data : RunData) :
    logged.execute b data = ({ logged with pc := 1, acc := 0xab#32 }, .ok none) ∧
    VM.execute b { logged with pc := 1, acc := 0xab#32 } data = ({ logged with pc := 3, acc := 0xab#32 }, .ok none) ∧
    VM.execute b { logged with pc := 3, acc := 0xab#32 } data = ({ logged with pc := 4, acc := 0xab#32 }, .ok (some 0x7fff0000#32)) := by
  refine ⟨rfl, ?_, rfl⟩
  simp [VM.execute, logged, VM.executeInstr, BPF_LD, BPF_LDX, BPF_ST, BPF_STX, BPF_ALU, BPF_JMP, VM.jumpAmount, BPF_JA, BPF_JEQ, BPF_JGT,
    BPF_JGE, BPF_JSET]

end Props
