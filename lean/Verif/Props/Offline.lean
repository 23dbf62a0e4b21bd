import Verif.Props.Exact
import Verif.Props.VmKernel

/-!
# C71: checking a filter offline
-/
set_option autoImplicit false

namespace Props
open Pledge Bpfvm Spec Kernel

/-- `run_seccomp`, src/seccomp.rs:1028-1031 (the way the crate checks its filters): build a VM, run it on the record behind
`any_to_data`, decode the value. -/
def runSeccomp (b : Build) (prog : List SockFilter) (data : RunData) : Option (Res Error SeccompReturn) :=
  (runProg b prog data).map fun r => r.bind SeccompReturn.tryFrom

theorem outcome_single (p : Prog) (d : SeccompData) : outcome (runFilters [p] d) = outcome (cur p d) := by
  rw [runFilters_eq, List.map_cons, List.map_nil]
  generalize cur p d = r
  show outcome (if actionOnly r < actionOnly 0x7fff0000#32 then r else 0x7fff0000#32) = _
  have hle := action_le_max r
  have ha : actionOnly 0x7fff0000#32 = (0x7fff0000#32).toInt := by decide
  split
  · rfl
  · rename_i hn
    have he : actionOnly r = (0x7fff0000#32).toInt := by omega
    rw [(outcome_executed r).2 (.inr he)]
    decide

theorem progOf_loadsInside (ids : Ids) (ps : List Promise) (v : BitVec 32) : ∀ i ∈ progOf ids ps v, LoadsInside 16 i := by
  have hp := plainAll_append plainAll_header (plainAll_body ids (allFilters ps))
  intro i hi
  unfold progOf at hi
  rw [List.mem_append, List.mem_singleton] at hi
  rcases hi with hi | rfl
  · have h1 := plainAll_codes hp i hi
    have h2 := List.all_eq_true.1 (plainAll_seccomp hp) i hi
    simp only [List.mem_cons, List.not_mem_nil, or_false] at h1
    rcases h1 with h | h | h | h | h | h
    · unfold seccompInstrOK at h2
      rw [if_pos h] at h2
      simp only [Bool.and_eq_true, decide_eq_true_eq] at h2
      unfold LoadsInside
      rw [h]
      exact ⟨fun _ => ⟨fun _ => by omega, by decide, by decide⟩, by decide⟩
    all_goals
      unfold LoadsInside
      rw [h]
      exact ⟨fun h' => absurd h' (by decide), fun h' => absurd h' (by decide)⟩
  · exact ⟨fun h' => absurd h' (show ¬ ((0x6#16 : BitVec 16) &&& 0x7 = 0) by decide),
      fun h' => absurd h' (show ¬ ((0x6#16 : BitVec 16) &&& 0x7 = 1) by decide)⟩

/-- C71: the pipeline VM, `any_to_data`, decoder on the filter of any promises and any record, wherever it lies in memory and whatever
follows it: a foreign record gives KillProcess, an allowed call Allow, a denied call what the decoder makes of the violation. It never
panics, and fails only if the decoder refuses the violation. -/
theorem C71_offline_result (b b' : Build) (ids : Ids) (ps : List Promise) (v : SeccompReturn) (prog : List SockFilter)
    (h : promisesToProg b ids ps v = .ok prog) (hl : prog.length ≤ 65535) (d : SeccompData) (m : Memory) (addr : Nat)
    (hm : Holds m addr d.bytes) :
    (d.arch ≠ X86_64 → runSeccomp b' prog (anyToDataAt m addr 64) = some (.ok .KillProcess)) ∧
    (Allows ids ps d → runSeccomp b' prog (anyToDataAt m addr 64) = some (.ok .Allow)) ∧
    (Denies ids ps d → runSeccomp b' prog (anyToDataAt m addr 64) = some (SeccompReturn.tryFrom v.toU32)) := by
  rw [promisesToProg_eq] at h
  injection h with h
  subst h
  obtain ⟨prog', h1, h2⟩ := C01_vm_verdict b b' ids ps v d
  rw [promisesToProg_eq] at h1
  injection h1 with h1
  subst h1
  rw [if_pos hl] at h2
  have h3 := (C26_run_depends_on_record_partial b' (progOf ids ps v.toU32) d.words
    (fun i => leWord m (addr + 64 + 4 * i)) (progOf_loadsInside ids ps v.toU32)).2
  have hrun : runSeccomp b' (progOf ids ps v.toU32) (anyToDataAt m addr 64) =
      some (SeccompReturn.tryFrom (verdict ids ps v.toU32 d)) := by
    unfold runSeccomp
    rw [C26_record m addr d hm, h3, h2]
    rfl
  rw [hrun]
  refine ⟨fun ha => ?_, fun ha => ?_, fun hd => ?_⟩
  · rw [verdict_foreign ha]; decide
  · have h4 := ha b v
    rw [filterVerdict_eq, Option.some.injEq] at h4
    rw [h4]; decide
  · have h4 := hd b v
    rw [filterVerdict_eq, Option.some.injEq] at h4
    rw [h4]

/-- Not vacuous: a record at address 64. -/
example (d : SeccompData) := C71_offline_result ⟨true⟩ ⟨false⟩ ⟨1, 1⟩ [.StdIO, .RPath] .Log _ (promisesToProg_eq ..)
  (by rw [progOf_length]; decide +kernel) d
  (fun a => if h : 64 ≤ a ∧ a - 64 < d.bytes.length then d.bytes[a - 64]'h.2 else 0) 64 (by intro i hi; simp [hi])

/-- C71: what the pipeline returns is what the kernel does with the call in a thread with this filter alone. -/
theorem C71_offline_predicts_kernel (b b' : Build) (ids : Ids) (ps : List Promise) (v : SeccompReturn) (prog : List SockFilter)
    (h : promisesToProg b ids ps v = .ok prog) (hl : prog.length ≤ 65535) (d : SeccompData) (m : Memory) (addr : Nat)
    (hm : Holds m addr d.bytes) (x : SeccompReturn)
    (hx : runSeccomp b' prog (anyToDataAt m addr 64) = some (.ok x)) : outcome (runFilters [prog] d) = requested x := by
  rw [promisesToProg_eq] at h
  injection h with h
  subst h
  obtain ⟨prog', h1, h2⟩ := C01_vm_verdict b b' ids ps v d
  rw [promisesToProg_eq] at h1
  injection h1 with h1
  subst h1
  rw [if_pos hl] at h2
  have h3 := (C26_run_depends_on_record_partial b' (progOf ids ps v.toU32) d.words
    (fun i => leWord m (addr + 64 + 4 * i)) (progOf_loadsInside ids ps v.toU32)).2
  unfold runSeccomp at hx
  rw [C26_record m addr d hm, h3, h2] at hx
  have hx' : SeccompReturn.tryFrom (verdict ids ps v.toU32 d) = .ok x := by simpa [Res.bind] using hx
  rw [outcome_single]
  have hc : cur (progOf ids ps v.toU32) d = verdict ids ps v.toU32 d := by
    unfold cur
    rw [run_progOf]
    rfl
  rw [hc]
  exact (C61_decoder_agrees _).1 x hx'

/-- A record in memory, at any address, with other things around it. -/
example (d : SeccompData) (addr : Nat) (f : Memory) :
    Holds (fun a => if h : addr ≤ a ∧ a - addr < d.bytes.length then d.bytes[a - addr]'h.2 else f a) addr d.bytes := by
  intro i hi
  simp [hi]

end Props
