import Verif.Props.Verdict
import Verif.Proofs.Stack

/-!
# C13, C14, C17, C48–C55: installing filters, and histories

`Spec.HasPledged t l`: the filters of `t` are exactly those of the pledges `l`. `Kernel.enter t d`: the fate of system call `d` of
thread `t`.
-/
set_option autoImplicit false

namespace Props
open Pledge Bpfvm Spec Kernel

/-! ## C13 -/

/-- C13, arbitrary lists: the kernel accepts the program exactly if it has at most 4096 instructions. -/
theorem C13_accepted_iff_short (b : Build) (ids : Ids) (ps : List Promise) (v : SeccompReturn) (prog : List SockFilter)
    (h : promisesToProg b ids ps v = .ok prog) : accepts prog = true ↔ prog.length ≤ 4096 := by
  rw [promisesToProg_eq] at h
  injection h with h
  rw [← h, accepts_progOf]
  exact decide_eq_true_iff

/-- Not vacuous: the program for StdIO. -/
example := C13_accepted_iff_short ⟨true⟩ ⟨1, 1⟩ [.StdIO] .Log _ (promisesToProg_eq ..)

theorem sum_le_of_nodup (f : Promise → Nat) (l L : List Promise) (hn : l.Nodup) (hs : ∀ p ∈ l, p ∈ L) :
    (l.map f).sum ≤ (L.map f).sum := by
  induction l generalizing L with
  | nil => simp
  | cons p l ih =>
    have hp : p ∈ L := hs p (by simp)
    have hperm := List.perm_cons_erase hp
    have h1 : (L.map f).sum = f p + ((L.erase p).map f).sum := by
      rw [(hperm.map f).sum_nat]; simp
    rw [List.nodup_cons] at hn
    have h2 := ih (L.erase p) hn.2 fun q hq => by
      rw [List.mem_erase_of_ne]
      · exact hs q (by simp [hq])
      · rintro rfl; exact hn.1 hq
    simp only [List.map_cons, List.sum_cons]
    omega

theorem length_of_nodup (ids : Ids) (ps : List Promise) (v : BitVec 32) (h : ps.Nodup) : (progOf ids ps v).length ≤ 1000 := by
  rw [progOf_length]
  have h1 := sum_le_of_nodup promiseLen ps allPromises h fun p _ => mem_allPromises p
  have h2 : (allPromises.map promiseLen).sum ≤ 900 := by decide +kernel
  have h3 : promiseLen .Default ≤ 2 := by decide +kernel
  omega

/-- C13, lists without repetitions: always accepted. -/
theorem C13_accepted_nodup (b : Build) (ids : Ids) (ps : List Promise) (v : SeccompReturn) (h : ps.Nodup) :
    ∃ prog, promisesToProg b ids ps v = .ok prog ∧ accepts prog = true := by
  refine ⟨_, promisesToProg_eq b ids ps v, ?_⟩
  rw [C13_accepted_iff_short b ids ps v _ (promisesToProg_eq b ids ps v)]
  have := length_of_nodup ids ps v.toU32 h
  omega

/-- Not vacuous: two promises. -/
example := C13_accepted_nodup ⟨true⟩ ⟨1, 1⟩ [.StdIO, .RPath] .Log (by decide)

/-- Lists that are too long exist: fifteen times StdIO. -/
theorem C13_too_long (b : Build) (ids : Ids) (v : SeccompReturn) :
    ∃ prog, promisesToProg b ids (List.replicate 15 .StdIO) v = .ok prog ∧ accepts prog = false := by
  refine ⟨_, promisesToProg_eq b ids _ v, ?_⟩
  rw [accepts_progOf, progOf_length]
  decide +kernel

example : [Promise.StdIO, .RPath, .Inet, .Dns].Nodup := by decide

/-! ## C14 -/

/-- C14: no proper prefix of a generated program passes the kernel's checks. -/
theorem C14_no_prefix (b : Build) (ids : Ids) (ps : List Promise) (v : SeccompReturn) (prog : List SockFilter)
    (h : promisesToProg b ids ps v = .ok prog) (n : Nat) (ha : accepts (prog.take n) = true) : prog.take n = prog := by
  rw [promisesToProg_eq] at h
  injection h with h
  subst h
  by_cases hn : n < (progOf ids ps v.toU32).length
  · rw [accepts_prefix ids ps v.toU32 n hn] at ha; cases ha
  · exact List.take_of_length_le (by omega)

/-- Not vacuous: the whole program for StdIO is accepted. -/
example : ∃ prog n, promisesToProg ⟨true⟩ ⟨1, 1⟩ [.StdIO] .Log = .ok prog ∧ accepts (prog.take n) = true :=
  let ⟨p, h, ha⟩ := C13_accepted_nodup ⟨true⟩ ⟨1, 1⟩ [.StdIO] .Log (by decide)
  ⟨p, p.length, h, by rw [List.take_length]; exact ha⟩

/-- C14, at the level of `pledge_override`: whatever thread calls it, its filters afterwards are the old ones, or the old ones
with one complete generated program. -/
theorem C14_all_or_nothing (b : Build) (env : Env) (t : Thread) (ps : List Promise) (v : SeccompReturn) :
    (pledgeOverride b env t ps v).1.filters = t.filters ∨
    ∃ ids prog, promisesToProg b ids ps v = .ok prog ∧ (pledgeOverride b env t ps v).1.filters = prog :: t.filters := by
  have h1 : ∀ h d f, (syscall h t d (setNnp f)).1.filters = t.filters := by
    intro h d f
    unfold syscall setNnp
    repeat' (first | split | rfl)
  have h2 : ∀ (h : Option Int) (u : Thread) (d : SeccompData) (f : Option Fault) (p : Prog),
      (syscall h u d (setSeccomp f p)).1.filters = u.filters ∨
      accepts p = true ∧ (syscall h u d (setSeccomp f p)).1.filters = p :: u.filters := by
    intro h u d f p
    unfold syscall setSeccomp
    split
    · simp only
      split
      · exact .inl rfl
      · split
        · exact .inl rfl
        · split
          · exact .inl rfl
          · split
            · exact .inl rfl
            · rename_i ha; exact .inr ⟨by simpa using ha, rfl⟩
    · exact .inl rfl
    · split <;> exact .inl rfl
    · exact .inl rfl
  unfold pledgeOverride
  split
  · exact .inl rfl
  · rename_i ids _
    split
    · exact .inl rfl
    · exact .inl rfl
    · rename_i prog hp
      simp only
      split
      · exact .inl (h1 _ _ _)
      · have h3 := h2 (env.onTrap env.trapRet.2)
          (syscall (env.onTrap env.trapRet.1) t (recNnp env) (setNnp env.nnpFault)).1 (recSeccomp env) env.seccompFault
          (prog.take (prog.length % 2 ^ 16))
        rw [h1] at h3
        have h4 : (syscall (env.onTrap env.trapRet.2)
          (syscall (env.onTrap env.trapRet.1) t (recNnp env) (setNnp env.nnpFault)).1 (recSeccomp env)
          (setSeccomp env.seccompFault (prog.take (prog.length % 2 ^ 16)))).1.filters = t.filters ∨
          (syscall (env.onTrap env.trapRet.2)
            (syscall (env.onTrap env.trapRet.1) t (recNnp env) (setNnp env.nnpFault)).1 (recSeccomp env)
            (setSeccomp env.seccompFault (prog.take (prog.length % 2 ^ 16)))).1.filters = prog :: t.filters := by
          rcases h3 with h3 | ⟨ha, h3⟩
          · exact .inl h3
          · have := C14_no_prefix b ids ps v prog hp _ ha
            rw [this] at h3 ⊢
            exact .inr h3
        split
        · exact h4.imp id fun h => ⟨ids, prog, hp, h⟩
        · exact h4.imp id fun h => ⟨ids, prog, hp, h⟩

/-- The truncation does happen: 226 times StdIO gives 65547 instructions, of which the kernel would see 11. -/
example (ids : Ids) (v : BitVec 32) : (progOf ids (List.replicate 226 .StdIO) v).length % 2 ^ 16 = 11 := by
  rw [progOf_length]
  decide +kernel

/-! ## C17 -/

/-- C17: on every generated program that the kernel accepts (indeed on every one the VM takes) VM and kernel agree, for either
build of the VM and any initial scratch memory of the kernel's interpreter. -/
theorem C17_vm_predicts_kernel (b b' : Build) (ids : Ids) (ps : List Promise) (v : SeccompReturn) (prog : List SockFilter)
    (h : promisesToProg b ids ps v = .ok prog) (hl : accepts prog = true ∨ prog.length ≤ 65535) (m0 : Nat → BitVec 32)
    (d : SeccompData) : ∃ r, Kernel.run m0 prog d.words = some r ∧ runProg b' prog d.words = some (.ok r) := by
  have hlen : prog.length ≤ 65535 := by
    rcases hl with hl | hl
    · have := (C13_accepted_iff_short b ids ps v prog h).1 hl; omega
    · exact hl
  obtain ⟨prog', h1, h2⟩ := C01_vm_verdict b b' ids ps v d
  rw [h] at h1
  injection h1 with h1
  subst h1
  rw [if_pos hlen] at h2
  refine ⟨_, ?_, h2⟩
  rw [promisesToProg_eq] at h
  injection h with h
  rw [← h]
  exact run_progOf m0 ids ps v.toU32 d

/-- Not vacuous: two promises. -/
example := C17_vm_predicts_kernel ⟨true⟩ ⟨false⟩ ⟨1, 1⟩ [.StdIO, .RPath] .Log _ (promisesToProg_eq ..)
  (.inr (by rw [progOf_length]; decide +kernel)) (fun _ => 7) (mkCall 2 [0, 0])

/-! ## C48 -/

theorem syscall_seccomp_ret (h : Option Int) (t : Thread) (d : SeccompData) (f : Option Fault) (p : Prog)
    (s : Nat) (hr : checkRet s (syscall h t d (setSeccomp f p)).2 ≠ none) : (syscall h t d (setSeccomp f p)).1 = t := by
  unfold syscall at *
  split
  · rename_i he
    rw [he] at hr
    simp only at hr
    revert hr
    unfold setSeccomp
    split
    · intro _; rfl
    · split
      · intro _; rfl
      · split
        · intro _; rfl
        · split
          · intro _; rfl
          · intro hr; exact absurd (checkRet_zero s) hr
  · rfl
  · split <;> rfl
  · rfl

theorem syscall_nnp_filters (h : Option Int) (t : Thread) (d : SeccompData) (f : Option Fault) :
    (syscall h t d (setNnp f)).1.filters = t.filters := by
  unfold syscall setNnp
  repeat' (first | split | rfl)

/-- C48: whatever filters the thread has, if `pledge_override` does not return Ok the filters are unchanged. -/
theorem C48_error_changes_no_filter (b : Build) (env : Env) (t : Thread) (ps : List Promise) (v : SeccompReturn)
    (h : (pledgeOverride b env t ps v).2 ≠ .ok) : (pledgeOverride b env t ps v).1.filters = t.filters := by
  unfold pledgeOverride at *
  split at h
  · rfl
  · split at h
    · rfl
    · rfl
    · simp only at h ⊢
      split at h
      · exact syscall_nnp_filters _ _ _ _
      · split at h
        · rename_i heq
          simp only at heq ⊢
          rw [syscall_seccomp_ret _ _ _ _ _ _ (by rw [heq]; simp)]
          exact syscall_nnp_filters _ _ _ _
        · simp at h

/-- C48: if a filter is installed, no_new_privs is set (for threads whose filters stem from pledges, or that have none). -/
theorem C48_installed_implies_nnp (b : Build) (env : Env) (t : Thread) (l : List Past) (hl : HasPledged t l)
    (ps : List Promise) (v : SeccompReturn) (h : (pledgeOverride b env t ps v).1.filters ≠ t.filters) :
    (pledgeOverride b env t ps v).1.nnp = true := by
  by_cases he : enter t (recNnp env) = .executed
  · rw [pledge_executed b env t ps v l hl he] at h ⊢
    revert h
    split
    · simp
    · split
      · simp
      · split <;> simp
  · rw [pledge_not_executed b env t ps v l hl he] at h
    exact absurd rfl h

/-- C48, order: a failing first prctl ends the call with that error; neither no_new_privs nor a filter is set. -/
theorem C48_nnp_first (b : Build) (env : Env) (t : Thread) (ht : t.filters = []) (ps : List Promise) (v : SeccompReturn) (e : Fault)
    (he : env.nnpFault = some e) : pledgeOverride b env t ps v = (t, .err (.SysErr (e.val + 1))) := by
  rw [pledge_executed b env t ps v [] (by simp [HasPledged, ht]) (by simp [enter, runFilters, ht]; decide), he]

/-- C48: the error of the second prctl: only no_new_privs is set. -/
theorem C48_seccomp_fault (b : Build) (env : Env) (t : Thread) (ht : t.filters = []) (ps : List Promise) (v : SeccompReturn)
    (e : Fault) (h1 : env.nnpFault = none) (h2 : env.seccompFault = some e) :
    pledgeOverride b env t ps v = ({ t with nnp := true }, .err (.SysErr (e.val + 1))) := by
  rw [pledge_executed b env t ps v [] (by simp [HasPledged, ht]) (by simp [enter, runFilters, ht]; decide), h1, h2]

/-- For examples: a thread without filters, and an environment without failures. -/
def thread0 : Thread := { pid := 100, tid := 100, filters := [], nnp := false, admin := false, alive := true }
def calm : Env :=
  { nnpFault := none, seccompFault := none, handler := false, trapRet := (0, 0), errno := (0, 0), idFail := ⟨0, 0⟩, ip := fun _ => 0, ptr := 4096
    junk := fun _ _ => 0, upper := fun _ _ => 0 }

/-- Not vacuous: the second prctl fails with EFAULT. -/
example := C48_seccomp_fault ⟨true⟩ { calm with seccompFault := some 13 } thread0 rfl [.RPath] .Log 13 rfl rfl

/-- Not vacuous: the first prctl fails with ENOSYS. -/
example := C48_error_changes_no_filter ⟨true⟩ { calm with nnpFault := some 37 } thread0 [.RPath] .Log
  (by rw [C48_nnp_first _ _ _ rfl _ _ 37 rfl]; simp)

example : (pledgeOverride ⟨true⟩ { calm with nnpFault := some 21 } thread0 [.StdIO] .KillProcess).2 ≠ .ok := by
  rw [C48_nnp_first _ _ _ rfl _ _ 21 rfl]; simp

/-! ## C49 -/

/-- Full claim of C49, for threads whose filters stem from pledges. -/
def C49_full : Prop :=
  ∀ (b : Build) (env : Env) (t : Thread) (l : List Past) (ps : List Promise) (v : SeccompReturn), HasPledged t l →
    (pledgeOverride b env t ps v).2 = .ok →
    ∃ prog, promisesToProg b ⟨t.pid, t.tid⟩ ps v = .ok prog ∧ (pledgeOverride b env t ps v).1.filters = prog :: t.filters ∧
      (pledgeOverride b env t ps v).1.nnp = true

/-- The outcome of the library's own calls is executed, or that of a violation of a pledge without StdIO. -/
theorem own_outcome (env : Env) (t : Thread) (l : List Past) (hl : HasPledged t l) :
    enter t (recNnp env) = .executed ∨ ∃ p ∈ l, .StdIO ∉ p.ps ∧ enter t (recNnp env) = outcome p.v.toU32 := by
  unfold enter
  rw [runFilters_pledged hl]
  rcases combine_mem 0x7fff0000#32 (l.map fun p => verdict p.ids p.ps p.v.toU32 (recNnp env)) with h | h
  · rw [h]; left; decide
  · obtain ⟨p, hp, he⟩ := List.mem_map.1 h
    rw [← he, verdict_own p.ids p.ps _ env _ (.inr (.inr (.inl rfl)))]
    split
    · left; decide
    · rename_i hs; exact .inr ⟨p, hp, hs, rfl⟩

theorem not_ok (b : Build) (env : Env) (t : Thread) (l : List Past) (hl : HasPledged t l) (ps : List Promise)
    (v : SeccompReturn) (h1 : enter t (recNnp env) ≠ .executed) (h2 : enter t (recNnp env) ≠ .errno 0)
    (h3 : enter t (recNnp env) ≠ .trap) : (pledgeOverride b env t ps v).2 ≠ .ok := by
  unfold pledgeOverride
  split
  · simp
  · split
    · simp
    · simp
    · simp only
      have : checkRet env.errno.1 (syscall (env.onTrap env.trapRet.1) t (recNnp env) (setNnp env.nnpFault)).2 ≠ none ∧
          checkRet env.errno.1 (syscall (env.onTrap env.trapRet.1) t (recNnp env) (setNnp env.nnpFault)).2 ≠ some .ok := by
        unfold syscall
        split
        · contradiction
        · rename_i n hn
          have : n ≠ 0 := by rintro rfl; exact h2 hn
          rw [checkRet_neg _ n (errno_le hn) this]
          simp
        · contradiction
        · simp [checkRet]
      split
      · rename_i e he
        rintro rfl
        exact this.2 he
      · rename_i he
        exact absurd he this.1

/-- C49 (partial): if no earlier pledge without StdIO answers violations with Errno(0) or with Trap, Ok means that the complete
program for this thread is installed. In particular the first pledge of a thread. Missing: those earlier pledges, for which the
claim is false (`C49_false_after_errno_zero`). -/
theorem C49_ok_means_enforced_partial (b : Build) (env : Env) (t : Thread) (l : List Past) (ps : List Promise)
    (v : SeccompReturn) (hl : HasPledged t l)
    (hv : ∀ p ∈ l, .StdIO ∈ p.ps ∨ outcome p.v.toU32 ≠ .errno 0 ∧ outcome p.v.toU32 ≠ .trap)
    (hok : (pledgeOverride b env t ps v).2 = .ok) :
    ∃ prog, promisesToProg b ⟨t.pid, t.tid⟩ ps v = .ok prog ∧ (pledgeOverride b env t ps v).1.filters = prog :: t.filters ∧
      (pledgeOverride b env t ps v).1.nnp = true := by
  refine ⟨_, promisesToProg_eq _ _ _ _, ?_⟩
  by_cases he : enter t (recNnp env) = .executed
  · rw [pledge_executed b env t ps v l hl he] at hok ⊢
    revert hok
    split
    · simp
    · split
      · simp
      · split <;> simp
  · rcases own_outcome env t l hl with h | ⟨p, hp, hs, h⟩
    · contradiction
    · rcases hv p hp with h1 | ⟨h1, h2⟩
      · contradiction
      · exact absurd hok (not_ok b env t l hl ps v he (by rw [h]; exact h1) (by rw [h]; exact h2))

/-- The first pledge of a thread with a list without repetitions in a calm environment does return Ok. -/
theorem C49_first_pledge (b : Build) (env : Env) (t : Thread) (ht : t.filters = []) (ps : List Promise) (v : SeccompReturn)
    (hn : ps.Nodup) (h1 : env.nnpFault = none) (h2 : env.seccompFault = none) :
    ∃ prog, promisesToProg b ⟨t.pid, t.tid⟩ ps v = .ok prog ∧
      pledgeOverride b env t ps v = ({ t with nnp := true, filters := [prog] }, .ok) := by
  refine ⟨_, promisesToProg_eq _ _ _ _, ?_⟩
  have hlen := length_of_nodup ⟨t.pid, t.tid⟩ ps v.toU32 hn
  rw [pledge_executed b env t ps v [] (by simp [HasPledged, ht]) (by simp [enter, runFilters, ht]; decide), h1, h2]
  simp only
  rw [if_pos (by omega), ht]

/-- Not vacuous: two promises. -/
example := C49_first_pledge ⟨true⟩ calm thread0 rfl [.StdIO, .RPath] .KillProcess (by decide) rfl rfl

/-- Not vacuous: the first pledge of a thread. -/
example := C49_ok_means_enforced_partial ⟨true⟩ calm thread0 [] [.RPath] .Log rfl (by simp) (by
  obtain ⟨_, _, h⟩ := C49_first_pledge ⟨true⟩ calm thread0 rfl [.RPath] .Log (by decide) rfl rfl
  rw [h])

/-- Not vacuous: the first pledge of a thread. -/
example : (pledgeOverride ⟨true⟩ calm thread0 [.RPath] .Log).1.nnp = true := by
  refine C48_installed_implies_nnp _ _ thread0 [] rfl _ _ ?_
  obtain ⟨_, _, h⟩ := C49_first_pledge ⟨true⟩ calm thread0 rfl [.RPath] .Log (by decide) rfl rfl
  rw [h]; simp [thread0]

/-- C49 is false in general: after a pledge of nothing with violation Errno(0), every further pledge returns Ok without
installing anything. -/
theorem C49_false_after_errno_zero : ¬ C49_full := by
  intro h
  let p : Past := ⟨⟨100, 100⟩, [], .Errno 0⟩
  let t : Thread := { thread0 with filters := [progOf ⟨100, 100⟩ [] (SeccompReturn.Errno 0).toU32] }
  have hl : HasPledged t [p] := (hasPledged_iff _ _).2 rfl
  have he : ∀ d, d = recGetpid calm ∨ d = recGettid calm ∨ d = recNnp calm ∨ d = recSeccomp calm → enter t d = .errno 0 := by
    intro d hd
    unfold enter
    rw [runFilters_pledged hl]
    simp only [List.map_cons, List.map_nil, p]
    rw [verdict_own _ _ _ calm d hd]
    decide
  have hres : pledgeOverride ⟨true⟩ calm t [.RPath] .KillProcess = (t, .ok) := by
    have hids : askIds calm t [.RPath] = .ok ⟨100, 100⟩ := by
      unfold askIds
      rw [if_neg (by rw [asksIds_iff]; decide)]
      rfl
    unfold pledgeOverride
    rw [hids]
    simp only [promisesToProg_eq]
    simp only [syscall, he _ (.inr (.inr (.inl rfl))), he _ (.inr (.inr (.inr rfl)))]
    rfl
  obtain ⟨prog, _, h2, _⟩ := h ⟨true⟩ calm t [p] [.RPath] .KillProcess hl (by rw [hres])
  rw [hres] at h2
  have := congrArg List.length h2
  simp at this

/-! ## C50 -/

theorem verdict_cases (ids : Ids) (ps : List Promise) (v : BitVec 32) (d : SeccompData) :
    verdict ids ps v d = 0x80000000 ∨ verdict ids ps v d = 0x7fff0000 ∨ verdict ids ps v d = v := by
  by_cases ha : d.arch = X86_64
  · by_cases hA : Allowed ids ps d
    · exact .inr (.inl (verdict_allowed ha hA))
    · exact .inr (.inr (verdict_denied ha hA))
  · exact .inl (verdict_foreign ha)

theorem fits_action (v : SeccompReturn) (h : PayloadFits v) :
    v.toU32 &&& 0xffff0000#32 ∈ [0x80000000#32, 0#32, 0x30000#32, 0x50000#32, 0x7ff00000#32, 0x7ffc0000#32, 0x7fff0000#32] := by
  cases v with
  | Errno e => simp only [SeccompReturn.toU32, SECCOMP_RET_ERRNO]; rw [or_hi _ e h]; decide
  | Trace e => simp only [SeccompReturn.toU32, SECCOMP_RET_TRACE]; rw [or_hi _ e h]; decide
  | _ => decide

theorem sane_of_fits (ids : Ids) (ps : List Promise) (v : SeccompReturn) (h : PayloadFits v) :
    Sane (progOf ids ps v.toU32) := by
  intro d
  rw [cur_progOf]
  rcases verdict_cases ids ps v.toU32 d with h1 | h1 | h1 <;> rw [h1]
  · decide
  · decide
  · have := fits_action v h
    constructor
    · intro h2; rw [h2] at this; revert this; decide
    · intro h2; rw [h2] at this; revert this; decide

/-- All threads of a history in which only the library installs filters have pledge filters only, and the promises and violations of these
were passed to a call. -/
theorem reachable_pledges (Q : List Promise → SeccompReturn → Prop) (ops : List Op) (s : System)
    (hs : ∀ (j : Nat) (t : Thread), s[j]? = some t → ∃ l, HasPledged t l ∧ ∀ p ∈ l, Q p.ps p.v) (ho : OnlyPledges ops)
    (hV : ∀ i b env ps v, Op.pledge i b env ps v ∈ ops → Q ps v) :
    ∀ (j : Nat) (t : Thread), (s.run ops)[j]? = some t → ∃ l, HasPledged t l ∧ ∀ p ∈ l, Q p.ps p.v := by
  induction ops generalizing s with
  | nil => exact hs
  | cons op ops ih =>
    refine ih (s.step op) ?_ (fun o ho' => ho o (by simp [ho'])) (fun i b env ps v hm => hV i b env ps v (by simp [hm]))
    have lift : ∀ {t t' : Thread}, t'.filters = t.filters → (∃ l, HasPledged t l ∧ ∀ p ∈ l, Q p.ps p.v) →
        ∃ l, HasPledged t' l ∧ ∀ p ∈ l, Q p.ps p.v := by
      rintro t t' he ⟨l, h1, h2⟩
      exact ⟨l, by unfold HasPledged; rw [he]; exact h1, h2⟩
    have hon : ∀ i f, (∀ t, (∃ l, HasPledged t l ∧ ∀ p ∈ l, Q p.ps p.v) → ∃ l, HasPledged (f t).1 l ∧ ∀ p ∈ l, Q p.ps p.v) →
        ∀ (j : Nat) (t : Thread), (s.on i f)[j]? = some t → ∃ l, HasPledged t l ∧ ∀ p ∈ l, Q p.ps p.v := by
      intro i f hf j t' h
      obtain ⟨t, h1, h2⟩ := on_get s i f j t' h
      rcases h2 with ⟨h2, _⟩ | ⟨_, _, h2, _⟩
      · exact lift h2 (hs j t h1)
      · exact lift h2 (hf t (hs j t h1))
    cases op with
    | pledge i b env ps v =>
      refine hon i _ ?_
      rintro t ⟨l, h1, h2⟩
      simp only
      by_cases he : enter t (recNnp env) = .executed
      · rw [pledge_executed b env t ps v l h1 he]
        split
        · exact ⟨l, h1, h2⟩
        · split
          · exact ⟨l, h1, h2⟩
          · split
            · refine ⟨⟨⟨t.pid, t.tid⟩, ps, v⟩ :: l, ?_, ?_⟩
              · rw [hasPledged_iff] at *
                simp [h1]
              · intro p hp
                simp only [List.mem_cons] at hp
                rcases hp with rfl | hp
                · exact hV i b env ps v (by simp)
                · exact h2 p hp
            · exact ⟨l, h1, h2⟩
      · rw [pledge_not_executed b env t ps v l h1 he]
        exact ⟨l, h1, h2⟩
    | call i d h => exact hon i _ fun t ht => ht
    | setNnp i d h fault => exact hon i _ fun t ht => lift (syscall_nnp_filters _ _ _ _) ht
    | setSeccomp i d h fault p => exact absurd rfl (ho _ (by simp) i d h fault p)
    | cred i a => exact hon i (fun t => ({ t with admin := a }, none)) fun t ht => lift (t := t) rfl ht
    | crash i w => exact hon i (fun t => (t, some (if w then .killProcess else .killThread))) fun t ht => ht
    | spawn i d h pid tid =>
      intro j t' ht'
      simp only [System.step] at ht'
      split at ht'
      · rename_i t hi
        split at ht'
        · by_cases hj : j < s.length
          · rw [List.getElem?_append_left hj] at ht'
            exact hs j t' ht'
          · rw [List.getElem?_append_right (by omega), List.getElem?_singleton] at ht'
            split at ht'
            · injection ht' with ht'
              exact lift (t := t) (by rw [← ht']) (hs i t hi)
            · cases ht'
        · exact hon i _ (fun t ht => ht) j t' ht'
      · exact hs j t' ht'

/-- The same for violations alone. -/
theorem reachable_pledged (V : SeccompReturn → Prop) (ops : List Op) (s : System)
    (hs : ∀ (j : Nat) (t : Thread), s[j]? = some t → ∃ l, HasPledged t l ∧ ∀ p ∈ l, V p.v) (ho : OnlyPledges ops)
    (hV : Violations V ops) :
    ∀ (j : Nat) (t : Thread), (s.run ops)[j]? = some t → ∃ l, HasPledged t l ∧ ∀ p ∈ l, V p.v :=
  reachable_pledges (fun _ v => V v) ops s hs ho hV

theorem fresh_pledged (V : SeccompReturn → Prop) (s : System) (h : Fresh s) (j : Nat) (t : Thread) (ht : s[j]? = some t) :
    ∃ l, HasPledged t l ∧ ∀ p ∈ l, V p.v := by
  refine ⟨[], ?_, by simp⟩
  unfold HasPledged
  rw [h t (List.mem_of_getElem? ht)]
  rfl

/-- C50, structure: along every history (also one in which filters are installed without the library), the filters of a thread
and of all threads it creates contain the filters it had, and no_new_privs stays. -/
theorem C50_filters_only_grow (s : System) (ops : List Op) (i : Nat) (t : Thread) (ht : s[i]? = some t) (j : Nat)
    (hj : j ∈ heirs s ops [i]) (u : Thread) (hu : (s.run ops)[j]? = some u) :
    t.filters <:+ u.filters ∧ (t.nnp = true → u.nnp = true) := by
  refine heirs_grown ops s [i] t ?_ ?_ j hj u hu
  · intro j hj u hu
    simp only [List.mem_singleton] at hj
    subst hj
    rw [ht] at hu
    injection hu with hu
    rw [← hu]
    exact .refl t
  · intro j hj
    simp only [List.mem_singleton] at hj
    subst hj
    exact (List.getElem?_eq_some_iff.1 ht).1

/-- Not vacuous: a thread creates another, which is its heir. -/
example := C50_filters_only_grow [thread0] [.spawn 0 (mkCall 56 [0x3d0f00]) none 100 101] 0 thread0 rfl 1 (by decide) _ rfl

/-- Full claim of C50: a call that is not executed for a thread at some point of a history is never executed later, for it or for
the threads it creates. `ops1`: the history so far; `ops2`: the rest. -/
def C50_full : Prop :=
  ∀ (s : System) (ops1 ops2 : List Op) (i : Nat) (t : Thread) (d : SeccompData), Fresh s → OnlyPledges ops1 →
    (s.run ops1)[i]? = some t → enter t d ≠ .executed →
    ∀ j ∈ heirs (s.run ops1) ops2 [i], ∀ u, (s.run (ops1 ++ ops2))[j]? = some u → enter u d ≠ .executed

theorem run_append (s : System) (a b : List Op) : s.run (a ++ b) = (s.run a).run b := by
  simp [System.run, List.foldl_append]

/-- C50 (partial): so far, violations with a payload of at most sixteen bits. Afterwards anything, also filters that do not come
from the library. Missing: earlier wide payloads, for which the claim is false (`C50_false_for_wide_payloads`). -/
theorem C50_privileges_never_grow_partial (s : System) (ops1 ops2 : List Op) (i : Nat) (t : Thread) (d : SeccompData)
    (hs : Fresh s) (ho : OnlyPledges ops1) (hV : Violations PayloadFits ops1) (ht : (s.run ops1)[i]? = some t)
    (hd : enter t d ≠ .executed) :
    ∀ j ∈ heirs (s.run ops1) ops2 [i], ∀ u, (s.run (ops1 ++ ops2))[j]? = some u → enter u d ≠ .executed := by
  intro j hj u hu
  rw [run_append] at hu
  have hg := C50_filters_only_grow (s.run ops1) ops2 i t ht j hj u hu
  refine denied_suffix hg.1 ?_ d hd
  obtain ⟨l, h1, h2⟩ := reachable_pledged PayloadFits ops1 s (fun j t h => fresh_pledged _ s hs j t h) ho hV i t ht
  rw [(hasPledged_iff t l).1 h1]
  intro f hf
  obtain ⟨p, hp, rfl⟩ := List.mem_map.1 hf
  exact sane_of_fits _ _ _ (h2 p hp)

/-- The state after one pledge by the only thread. -/
theorem run_first (v : SeccompReturn) (ps : List Promise) (hn : ps.Nodup) :
    System.run [thread0] [.pledge 0 ⟨true⟩ calm ps v] =
      [{ thread0 with nnp := true, filters := [progOf ⟨100, 100⟩ ps v.toU32] }] := by
  obtain ⟨prog, h1, h2⟩ := C49_first_pledge ⟨true⟩ calm thread0 rfl ps v hn rfl rfl
  rw [promisesToProg_eq] at h1
  injection h1 with h1
  have ha : thread0.alive = true := rfl
  simp only [System.run, List.foldl_cons, List.foldl_nil, System.step, System.on, List.getElem?_cons_zero, ha, if_true, h2,
    PledgeRes.death, List.set_cons_zero, ← h1]
  rfl

/-- A history that meets the hypotheses: one thread pledges StdIO, execve is denied from then on, also for a thread that it
creates next (clone with the usual thread flags), which is one of the heirs. -/
example : Fresh [thread0] ∧ OnlyPledges [.pledge 0 ⟨true⟩ calm [.StdIO] .KillProcess] ∧
    Violations PayloadFits [.pledge 0 ⟨true⟩ calm [.StdIO] .KillProcess] ∧
    (∃ t, (System.run [thread0] [.pledge 0 ⟨true⟩ calm [.StdIO] .KillProcess])[0]? = some t ∧
      enter t (mkCall 59 []) ≠ .executed) ∧
    heirs (System.run [thread0] [.pledge 0 ⟨true⟩ calm [.StdIO] .KillProcess])
      [.spawn 0 (mkCall 56 [0x3d0f00]) none 100 101] [0] = [1, 0] := by
  have hl : HasPledged { thread0 with nnp := true, filters := [progOf ⟨100, 100⟩ [.StdIO] SeccompReturn.KillProcess.toU32] }
    [⟨⟨100, 100⟩, [.StdIO], .KillProcess⟩] := (hasPledged_iff _ _).2 rfl
  refine ⟨by simp [Fresh, thread0], by simp [OnlyPledges], ?_, ?_, ?_⟩
  · rintro i b env ps v h
    simp only [List.mem_singleton, Op.pledge.injEq] at h
    rw [h.2.2.2.2]; trivial
  · rw [run_first _ _ (by decide)]
    refine ⟨_, rfl, ?_⟩
    unfold enter
    rw [runFilters_pledged hl]
    simp only [List.map_cons, List.map_nil]
    rw [verdict_denied rfl ((denies_iff _ _ _).1 (denies_execve _)).2]
    decide
  · rw [run_first _ _ (by decide)]
    have hx : enter { thread0 with nnp := true, filters := [progOf ⟨100, 100⟩ [.StdIO] SeccompReturn.KillProcess.toU32] }
        (mkCall 56 [0x3d0f00]) = .executed := by
      unfold enter
      rw [runFilters_pledged hl]
      simp only [List.map_cons, List.map_nil]
      rw [verdict_allowed rfl ((allowed_iff (n := 56) rfl (by decide) _).2 ⟨.StdIO, by simp, .inr (.inl ⟨rfl,
        by simp only [hasAll]; decide, by simp only [hasNone]; decide⟩)⟩)]
      decide
    simp only [heirs, System.step, List.getElem?_cons_zero, hx]
    simp [thread0]

/-- C50 is false for wide payloads: after a pledge with violation Errno(0x7ffd0000), a forbidden execve would be punished by the
kernel as an unknown action; after a second pledge with violation Log it is executed. -/
theorem C50_false_for_wide_payloads : ¬ C50_full := by
  intro h
  let v1 : SeccompReturn := .Errno 0x7ffd0000
  let t1 : Thread := { thread0 with nnp := true, filters := [progOf ⟨100, 100⟩ [.StdIO] v1.toU32] }
  let p1 : Past := ⟨⟨100, 100⟩, [.StdIO], v1⟩
  let p2 : Past := ⟨⟨100, 100⟩, [.StdIO], .Log⟩
  let t2 : Thread := { t1 with filters := progOf ⟨100, 100⟩ [.StdIO] SeccompReturn.Log.toU32 :: t1.filters }
  have hl1 : HasPledged t1 [p1] := (hasPledged_iff _ _).2 rfl
  have hl2 : HasPledged t2 [p2, p1] := (hasPledged_iff _ _).2 rfl
  have hden : ∀ v : SeccompReturn, verdict ⟨100, 100⟩ [.StdIO] v.toU32 (mkCall 59 []) = v.toU32 := fun v =>
    verdict_denied rfl ((denies_iff _ _ _).1 (denies_execve _)).2
  have hr1 : System.run [thread0] [.pledge 0 ⟨true⟩ calm [.StdIO] v1] = [t1] := run_first v1 _ (by decide)
  have he1 : enter t1 (mkCall 59 []) ≠ .executed := by
    unfold enter
    rw [runFilters_pledged hl1]
    simp only [List.map_cons, List.map_nil, p1, hden]
    decide
  have hx : enter t1 (recNnp calm) = .executed := by
    unfold enter
    rw [runFilters_pledged hl1]
    simp only [List.map_cons, List.map_nil, p1]
    rw [verdict_own _ _ _ calm _ (.inr (.inr (.inl rfl)))]
    decide
  have hlen := length_of_nodup ⟨100, 100⟩ [.StdIO] SeccompReturn.Log.toU32 (by decide)
  have hr2 : System.run [t1] [.pledge 0 ⟨true⟩ calm [.StdIO] .Log] = [t2] := by
    have h2 : pledgeOverride ⟨true⟩ calm t1 [.StdIO] .Log = (t2, .ok) :=
      (pledge_executed ⟨true⟩ calm t1 [.StdIO] .Log [p1] hl1 hx).trans (if_pos (Nat.le_trans hlen (by decide)))
    have ha : t1.alive = true := rfl
    simp only [System.run, List.foldl_cons, List.foldl_nil, System.step, System.on, List.getElem?_cons_zero, ha, if_true, h2,
      PledgeRes.death, List.set_cons_zero]
  have he2 : enter t2 (mkCall 59 []) = .executed := by
    unfold enter
    rw [runFilters_pledged hl2]
    simp only [List.map_cons, List.map_nil, p1, p2, hden]
    decide
  refine h [thread0] [.pledge 0 ⟨true⟩ calm [.StdIO] v1] [.pledge 0 ⟨true⟩ calm [.StdIO] .Log] 0 t1 (mkCall 59 [])
    (by simp [Fresh, thread0]) (by simp [OnlyPledges]) (by rw [hr1]; rfl) he1 0 ?_ t2 ?_ he2
  · simp [heirs]
  · rw [run_append, hr1, hr2]; rfl

/-! ## C51, C55 -/

/-- The seven actions by severity. -/
def rank : SeccompReturn → Nat
  | .KillProcess => 0
  | .KillThread => 1
  | .Trap => 2
  | .Errno _ => 3
  | .Trace _ => 4
  | .Log => 5
  | .Allow => 6

/-- Words of the seven known actions, in order. -/
def known : List (BitVec 32 × Nat) :=
  [(0x80000000, 0), (0, 1), (0x30000, 2), (0x50000, 3), (0x7ff00000, 4), (0x7ffc0000, 5), (0x7fff0000, 6)]

theorem tryFrom_rank (r : BitVec 32) (x : SeccompReturn) (h : SeccompReturn.tryFrom r = .ok x) :
    (r &&& 0xffff0000#32, rank x) ∈ known := by
  unfold SeccompReturn.tryFrom at h
  have e : r &&& SECCOMP_RET_ACTION_FULL = r &&& 0xffff0000#32 := rfl
  dsimp only at h
  split at h
  · rename_i ha; rw [← e, ha]; injection h with h; subst h; simp [known, rank, SECCOMP_RET_KILL_PROCESS]
  split at h
  · rename_i ha; rw [← e, ha]; injection h with h; subst h; simp [known, rank, SECCOMP_RET_KILL_THREAD]
  split at h
  · rename_i ha; rw [← e, ha]; injection h with h; subst h; simp [known, rank, SECCOMP_RET_TRAP]
  split at h
  · rename_i ha; rw [← e, ha]; injection h with h; subst h; simp [known, rank, SECCOMP_RET_ERRNO]
  split at h
  · rename_i ha; rw [← e, ha]; injection h with h; subst h; simp [known, rank, SECCOMP_RET_TRACE]
  split at h
  · rename_i ha; rw [← e, ha]; injection h with h; subst h; simp [known, rank, SECCOMP_RET_LOG]
  split at h
  · rename_i ha; rw [← e, ha]; injection h with h; subst h; simp [known, rank, SECCOMP_RET_ALLOW]
  · cases h

theorem rank_le (r r' : BitVec 32) (x x' : SeccompReturn) (h : SeccompReturn.tryFrom r = .ok x)
    (h' : SeccompReturn.tryFrom r' = .ok x') (hle : actionOnly r ≤ actionOnly r') : rank x ≤ rank x' := by
  have h1 := tryFrom_rank r x h
  have h2 := tryFrom_rank r' x' h'
  unfold actionOnly at hle
  generalize r &&& 0xffff0000#32 = a at *
  generalize r' &&& 0xffff0000#32 = a' at *
  generalize rank x = n at *
  generalize rank x' = n' at *
  have hall : ∀ e ∈ known, ∀ e' ∈ known, e.1.toInt ≤ e'.1.toInt → e.2 ≤ e'.2 := by decide
  exact hall _ h1 _ h2 hle

theorem verdict_decodes (p : Past) (hp : PayloadFits p.v) (d : SeccompData) :
    ∃ x, SeccompReturn.tryFrom (verdict p.ids p.ps p.v.toU32 d) = .ok x := by
  rcases verdict_cases p.ids p.ps p.v.toU32 d with h | h | h <;> rw [h]
  · exact ⟨.KillProcess, by decide⟩
  · exact ⟨.Allow, by decide⟩
  · exact ⟨_, (C09_decodes_iff_fits p.v).2 hp⟩

/-- C55: under several pledges (violations with payloads of at most sixteen bits) the value the kernel acts on decodes to an
action that is the verdict of one of the pledges (or Allow, if there is none) and is at least as severe as that of each. -/
theorem C55_most_severe_wins (t : Thread) (l : List Past) (hl : HasPledged t l) (hf : ∀ p ∈ l, PayloadFits p.v)
    (d : SeccompData) :
    ∃ x, SeccompReturn.tryFrom (runFilters t.filters d) = .ok x ∧
      (l = [] ∧ x = .Allow ∨ ∃ p ∈ l, ∃ r, p.verdict d = some r ∧ SeccompReturn.tryFrom r = .ok x) ∧
      ∀ p ∈ l, ∀ r y, p.verdict d = some r → SeccompReturn.tryFrom r = .ok y → rank x ≤ rank y := by
  rw [runFilters_pledged hl]
  have hle := combine_le 0x7fff0000#32 (l.map fun p => verdict p.ids p.ps p.v.toU32 d)
  have hmin : ∀ x, SeccompReturn.tryFrom (combine 0x7fff0000#32 (l.map fun p => verdict p.ids p.ps p.v.toU32 d)) = .ok x →
      ∀ p ∈ l, ∀ r y, p.verdict d = some r → SeccompReturn.tryFrom r = .ok y → rank x ≤ rank y := by
    intro x hx p hp r y hr hy
    rw [past_verdict] at hr
    injection hr with hr
    subst hr
    exact rank_le _ _ _ _ hx hy (hle.2 _ (List.mem_map.2 ⟨p, hp, rfl⟩))
  rcases combine_mem 0x7fff0000#32 (l.map fun p => verdict p.ids p.ps p.v.toU32 d) with h | h
  · refine ⟨.Allow, by rw [h]; decide, ?_, hmin _ (by rw [h]; decide)⟩
    cases hl' : l with
    | nil => exact .inl ⟨rfl, rfl⟩
    | cons p l' =>
      right
      subst hl'
      -- every verdict is at most Allow, and the minimum is Allow, so the first verdict is Allow
      have h1 := hle.2 (verdict p.ids p.ps p.v.toU32 d) (by simp)
      rw [h] at h1
      have h2 := action_le_max (verdict p.ids p.ps p.v.toU32 d)
      have h3 : actionOnly 0x7fff0000#32 = (0x7fff0000#32).toInt := by decide
      obtain ⟨x, hx⟩ := verdict_decodes p (hf p (by simp)) d
      have hr := tryFrom_rank _ _ hx
      have ha : verdict p.ids p.ps p.v.toU32 d &&& 0xffff0000#32 = 0x7fff0000#32 :=
        (action_eq_iff _ _).1 (by omega)
      rw [ha] at hr
      have : rank x = 6 := by
        revert hr
        generalize rank x = n
        simp [known]
      refine ⟨p, by simp, _, past_verdict p d, ?_⟩
      rw [hx]
      cases x <;> simp [rank] at this ⊢
  · obtain ⟨p, hp, he⟩ := List.mem_map.1 h
    obtain ⟨x, hx⟩ := verdict_decodes p (hf p hp) d
    exact ⟨x, by rw [← he]; exact hx, .inr ⟨p, hp, _, past_verdict p d, hx⟩, hmin _ (by rw [← he]; exact hx)⟩

example : HasPledged { thread0 with filters := [progOf ⟨100, 100⟩ [.StdIO] 0x50001, progOf ⟨100, 100⟩ [.StdIO, .RPath] 0x30000] }
    [⟨⟨100, 100⟩, [.StdIO], .Errno 1⟩, ⟨⟨100, 100⟩, [.StdIO, .RPath], .Trap⟩] := (hasPledged_iff _ _).2 rfl

/-- Full claim of C51. -/
def C51_full : Prop :=
  ∀ (t t' : Thread) (l : List Past) (d : SeccompData), t.filters = [] → OkPledges t l t' →
    (enter t' d = .executed ↔ ∀ p ∈ l, ∃ r, p.verdict d = some r ∧ outcome r = .executed)

theorem executed_ge (r : BitVec 32) (h : outcome r = .executed) : (0x7ffc0000#32).toInt ≤ actionOnly r := by
  rw [outcome_executed] at h
  have : (0x7ffc0000#32).toInt ≤ (0x7fff0000#32).toInt := by decide
  omega

theorem executed_of_ge (p : Past) (hp : PayloadFits p.v) (d : SeccompData)
    (h : (0x7ffc0000#32).toInt ≤ actionOnly (verdict p.ids p.ps p.v.toU32 d)) :
    outcome (verdict p.ids p.ps p.v.toU32 d) = .executed := by
  obtain ⟨x, hx⟩ := verdict_decodes p hp d
  have hr := tryFrom_rank _ _ hx
  rw [outcome_executed, action_eq_iff, action_eq_iff]
  unfold actionOnly at h
  generalize verdict p.ids p.ps p.v.toU32 d &&& 0xffff0000#32 = a at *
  generalize rank x = n at *
  have hall : ∀ e ∈ known, (0x7ffc0000#32).toInt ≤ e.1.toInt → e.1 = 0x7ffc0000#32 ∨ e.1 = 0x7fff0000#32 := by decide
  exact hall _ hr h

/-- A thread with the filters of the pledges `l` (payloads of at most sixteen bits) has a call executed exactly if every one of
them lets it be executed. -/
theorem C51_intersection (t : Thread) (l : List Past) (hl : HasPledged t l) (hf : ∀ p ∈ l, PayloadFits p.v) (d : SeccompData) :
    enter t d = .executed ↔ ∀ p ∈ l, ∃ r, p.verdict d = some r ∧ outcome r = .executed := by
  unfold enter
  rw [runFilters_pledged hl]
  have hle := combine_le 0x7fff0000#32 (l.map fun p => verdict p.ids p.ps p.v.toU32 d)
  constructor
  · intro h p hp
    refine ⟨_, past_verdict p d, executed_of_ge p (hf p hp) d ?_⟩
    have h1 := executed_ge _ h
    have h2 := hle.2 (verdict p.ids p.ps p.v.toU32 d) (List.mem_map.2 ⟨p, hp, rfl⟩)
    omega
  · intro h
    rcases combine_mem 0x7fff0000#32 (l.map fun p => verdict p.ids p.ps p.v.toU32 d) with hm | hm
    · rw [hm]; decide
    · obtain ⟨p, hp, he⟩ := List.mem_map.1 hm
      obtain ⟨r, h1, h2⟩ := h p hp
      rw [past_verdict] at h1
      injection h1 with h1
      rw [← he, h1]; exact h2

/-- Not vacuous: two pledges with different violations. -/
example (d : SeccompData) := C51_intersection
  { thread0 with filters := [progOf ⟨100, 100⟩ [.StdIO] 0x50001, progOf ⟨100, 100⟩ [.StdIO, .RPath] 0x30000] }
  [⟨⟨100, 100⟩, [.StdIO], .Errno 1⟩, ⟨⟨100, 100⟩, [.StdIO, .RPath], .Trap⟩] ((hasPledged_iff _ _).2 rfl) (by simp [PayloadFits]) d

/-- Successive Ok pledges, none of which answers a violation with Errno(0) or Trap unless it has StdIO, are all enforced. -/
theorem okPledges_hasPledged (t t' : Thread) (l : List Past) (ht : t.filters = []) (h : OkPledges t l t')
    (hv : ∀ p ∈ l, .StdIO ∈ p.ps ∨ outcome p.v.toU32 ≠ .errno 0 ∧ outcome p.v.toU32 ≠ .trap) : HasPledged t' l := by
  induction h with
  | none => simp [HasPledged, ht]
  | more l u u' b env ps v hprev hok ih =>
    have hl := ih fun p hp => hv p (by simp [hp])
    have := C49_ok_means_enforced_partial b env u l ps v hl (fun p hp => hv p (by simp [hp])) (by rw [hok])
    obtain ⟨prog, h1, h2, _⟩ := this
    rw [hok] at h2
    simp only at h2
    unfold HasPledged at *
    rw [h2, List.map_cons, List.map_cons, hl]
    congr 1
    rw [← h1]
    exact C12_build_independent _ _ _ _ _

/-- C51 (partial): after successive Ok pledges a call is executed exactly if every pledge lets it be executed. Restricted to
payloads of at most sixteen bits, and Errno(0) / Trap only with StdIO. Missing: those, for which the claim is false
(`C51_false_in_general`). -/
theorem C51_successive_partial (t t' : Thread) (l : List Past) (d : SeccompData) (ht : t.filters = []) (h : OkPledges t l t')
    (hf : ∀ p ∈ l, PayloadFits p.v)
    (hv : ∀ p ∈ l, .StdIO ∈ p.ps ∨ outcome p.v.toU32 ≠ .errno 0 ∧ outcome p.v.toU32 ≠ .trap) :
    enter t' d = .executed ↔ ∀ p ∈ l, ∃ r, p.verdict d = some r ∧ outcome r = .executed :=
  C51_intersection t' l (okPledges_hasPledged t t' l ht h hv) hf d

/-- C51 with the default violation, in terms of permissions: executed exactly if every pledge allows it. -/
theorem C51_default_violation (t t' : Thread) (l : List Past) (d : SeccompData) (ht : t.filters = []) (h : OkPledges t l t')
    (hk : ∀ p ∈ l, p.v = .KillProcess) : enter t' d = .executed ↔ ∀ p ∈ l, Allows p.ids p.ps d := by
  rw [C51_successive_partial t t' l d ht h (fun p hp => by rw [hk p hp]; trivial)
    (fun p hp => .inr (by rw [hk p hp]; decide))]
  constructor
  · intro hall p hp
    obtain ⟨r, h1, h2⟩ := hall p hp
    rw [past_verdict] at h1
    injection h1 with h1
    rw [allows_iff]
    by_cases ha : d.arch = X86_64
    · refine ⟨ha, Classical.byContradiction fun hA => ?_⟩
      rw [verdict_denied ha hA, hk p hp] at h1
      rw [← h1] at h2
      exact absurd h2 (by decide)
    · rw [verdict_foreign ha] at h1
      rw [← h1] at h2
      exact absurd h2 (by decide)
  · intro hall p hp
    exact ⟨_, hall p hp ⟨false⟩ p.v, by decide⟩

/-- Two pledges of one thread, the second a subset of the first. -/
theorem okPledges_two : ∃ t', OkPledges thread0
    [⟨⟨100, 100⟩, [.StdIO], .KillProcess⟩, ⟨⟨100, 100⟩, [.StdIO, .RPath], .KillProcess⟩] t' := by
  obtain ⟨prog, h1, h2⟩ := C49_first_pledge ⟨true⟩ calm thread0 rfl [.StdIO, .RPath] .KillProcess (by decide) rfl rfl
  rw [promisesToProg_eq] at h1
  injection h1 with h1
  have hl : HasPledged { thread0 with nnp := true, filters := [prog] } [⟨⟨100, 100⟩, [.StdIO, .RPath], .KillProcess⟩] := by
    rw [hasPledged_iff, ← h1]; rfl
  have hx : enter { thread0 with nnp := true, filters := [prog] } (recNnp calm) = .executed := by
    unfold enter
    rw [runFilters_pledged hl]
    simp only [List.map_cons, List.map_nil]
    rw [verdict_own _ _ _ calm _ (.inr (.inr (.inl rfl)))]
    decide
  have hlen := length_of_nodup ⟨100, 100⟩ [.StdIO] SeccompReturn.KillProcess.toU32 (by decide)
  have h3 := (pledge_executed ⟨true⟩ calm _ [.StdIO] .KillProcess _ hl hx).trans (if_pos (Nat.le_trans hlen (by decide)))
  exact ⟨_, .more _ _ _ ⟨true⟩ calm [.StdIO] .KillProcess (.more [] thread0 _ ⟨true⟩ calm [.StdIO, .RPath] .KillProcess .none h2) h3⟩

/-- Not vacuous: two pledges of one thread. -/
example (d : SeccompData) : ∃ t', enter t' d = .executed ↔ Allows ⟨100, 100⟩ [.StdIO] d ∧ Allows ⟨100, 100⟩ [.StdIO, .RPath] d :=
  let ⟨t', h⟩ := okPledges_two
  ⟨t', (C51_default_violation thread0 t' _ d rfl h (by simp)).trans (by simp)⟩

/-- Not vacuous: two pledges of one thread. -/
example (d : SeccompData) : ∃ t', enter t' d = .executed ↔
    ∀ p ∈ ([⟨⟨100, 100⟩, [.StdIO], .KillProcess⟩, ⟨⟨100, 100⟩, [.StdIO, .RPath], .KillProcess⟩] : List Past),
      ∃ r, p.verdict d = some r ∧ outcome r = .executed :=
  let ⟨t', h⟩ := okPledges_two
  ⟨t', C51_successive_partial thread0 t' _ d rfl h (by simp [PayloadFits]) (by simp)⟩

/-- C51 is false in general: after Errno(0) without StdIO, a later pledge returns Ok but does not count. -/
theorem C51_false_in_general : ¬ C51_full := by
  intro h
  obtain ⟨prog, h1, h2⟩ := C49_first_pledge ⟨true⟩ calm thread0 rfl [.RPath, .Exec] (.Errno 0) (by decide) rfl rfl
  rw [promisesToProg_eq] at h1
  injection h1 with h1
  have hl : HasPledged { thread0 with nnp := true, filters := [prog] } [⟨⟨100, 100⟩, [.RPath, .Exec], .Errno 0⟩] := by
    rw [hasPledged_iff, ← h1]; rfl
  have he : ∀ d, d = recGetpid calm ∨ d = recGettid calm ∨ d = recNnp calm ∨ d = recSeccomp calm →
      enter { thread0 with nnp := true, filters := [prog] } d = .errno 0 := by
    intro d hd
    unfold enter
    rw [runFilters_pledged hl]
    simp only [List.map_cons, List.map_nil]
    rw [verdict_own _ _ _ calm d hd]
    decide
  have hres : pledgeOverride ⟨true⟩ calm { thread0 with nnp := true, filters := [prog] } [.RPath] .KillProcess =
      ({ thread0 with nnp := true, filters := [prog] }, .ok) := by
    have hids : askIds calm { thread0 with nnp := true, filters := [prog] } [.RPath] = .ok ⟨100, 100⟩ := by
      unfold askIds
      rw [if_neg (by rw [asksIds_iff]; decide)]
      rfl
    unfold pledgeOverride
    rw [hids]
    simp only [promisesToProg_eq]
    simp only [syscall, he _ (.inr (.inr (.inl rfl))), he _ (.inr (.inr (.inr rfl)))]
    rfl
  have hp : OkPledges thread0 [⟨⟨100, 100⟩, [.RPath], .KillProcess⟩, ⟨⟨100, 100⟩, [.RPath, .Exec], .Errno 0⟩]
      { thread0 with nnp := true, filters := [prog] } :=
    .more _ _ _ ⟨true⟩ calm [.RPath] .KillProcess (.more [] thread0 _ ⟨true⟩ calm [.RPath, .Exec] (.Errno 0) .none h2) hres
  have hf : freeOf 59 = [.Exec] := by decide +kernel
  have hx : enter { thread0 with nnp := true, filters := [prog] } (mkCall 59 []) = .executed := by
    unfold enter
    rw [runFilters_pledged hl]
    simp only [List.map_cons, List.map_nil]
    rw [verdict_allowed rfl ((allowed_iff (n := 59) rfl (by decide) _).2 ⟨.Exec, by simp, .inl (by simp [hf])⟩)]
    decide
  have := (h thread0 _ _ (mkCall 59 []) rfl hp).1 hx ⟨⟨100, 100⟩, [.RPath], .KillProcess⟩ (by simp)
  obtain ⟨r, h3, h4⟩ := this
  rw [past_verdict, verdict_denied rfl] at h3
  · injection h3 with h3
    rw [← h3] at h4
    revert h4; decide
  · rw [allowed_iff (n := 59) rfl (by decide), hf]
    simp [ruleAt]

/-! ## C52 -/

/-- C52, with StdIO in all earlier pledges: pledging again works (no failures outside the model, program within the kernel's
limit) and adds exactly the new program. -/
theorem C52_again_with_stdio (b : Build) (env : Env) (t : Thread) (l : List Past) (hl : HasPledged t l)
    (hs : ∀ p ∈ l, .StdIO ∈ p.ps) (ps : List Promise) (v : SeccompReturn) (hn : ps.Nodup) (h1 : env.nnpFault = none)
    (h2 : env.seccompFault = none) :
    ∃ prog, promisesToProg b ⟨t.pid, t.tid⟩ ps v = .ok prog ∧
      pledgeOverride b env t ps v = ({ t with nnp := true, filters := prog :: t.filters }, .ok) := by
  refine ⟨_, promisesToProg_eq _ _ _ _, ?_⟩
  have he : enter t (recNnp env) = .executed := by
    rcases own_outcome env t l hl with h | ⟨p, hp, hn, _⟩
    · exact h
    · exact absurd (hs p hp) hn
  have hlen := length_of_nodup ⟨t.pid, t.tid⟩ ps v.toU32 hn
  rw [pledge_executed b env t ps v l hl he, h1, h2]
  simp only
  rw [if_pos (by omega)]

/-- Not vacuous: StdIO first, then RPath. -/
example := C52_again_with_stdio ⟨true⟩ calm { thread0 with filters := [progOf ⟨100, 100⟩ [.StdIO] 0x80000000] } 
  [⟨⟨100, 100⟩, [.StdIO], .KillProcess⟩] ((hasPledged_iff _ _).2 rfl) (by simp) [.RPath] .Log (by decide) rfl rfl

theorem min_action (r : BitVec 32) (h : actionOnly r ≤ (0x80000000#32).toInt) : outcome r = .killProcess := by
  have h2 : -2147483648 ≤ actionOnly r := by
    unfold actionOnly
    have := BitVec.le_toInt (x := r &&& 0xffff0000#32)
    simpa using this
  have h3 : (0x80000000#32).toInt = -2147483648 := by decide
  have : r &&& 0xffff0000#32 = 0x80000000#32 := (action_eq_iff _ _).1 (by omega)
  unfold outcome
  simp only [this]
  repeat rw [if_neg (by decide)]

/-- C52, otherwise: after a pledge without StdIO and with the default violation, a further pledge is killed with the process. -/
theorem C52_again_without_stdio (b : Build) (env : Env) (t : Thread) (l : List Past) (hl : HasPledged t l) (p : Past)
    (hp : p ∈ l) (hs : .StdIO ∉ p.ps) (hv : p.v = .KillProcess) (ps : List Promise) (v : SeccompReturn) :
    pledgeOverride b env t ps v = (t, .died .killProcess) := by
  have he : ∀ d, d = recGetpid env ∨ d = recGettid env ∨ d = recNnp env ∨ d = recSeccomp env → enter t d = .killProcess := by
    intro d hd
    unfold enter
    apply min_action
    rw [runFilters_pledged hl]
    refine Int.le_trans ((combine_le _ _).2 _ (List.mem_map.2 ⟨p, hp, rfl⟩)) ?_
    rw [verdict_own _ _ _ env d hd, if_neg hs, hv]
    decide
  unfold pledgeOverride askIds askId
  rw [he _ (.inl rfl)]
  split
  · rename_i h
    split at h
    · injection h with h; rw [← h]
    · cases h
  · rename_i h
    split at h
    · cases h
    · simp only [promisesToProg_eq, syscall, he _ (.inr (.inr (.inl rfl))), checkRet]

/-- Not vacuous: RPath first. -/
example := C52_again_without_stdio ⟨true⟩ calm { thread0 with filters := [progOf ⟨100, 100⟩ [.RPath] 0x80000000] } 
  [⟨⟨100, 100⟩, [.RPath], .KillProcess⟩] ((hasPledged_iff _ _).2 rfl) _
  (List.mem_singleton.2 rfl) (by decide) rfl [.StdIO] .Log

/-- C52, at system level: every thread of the process is dead then. -/
theorem C52_process_dies (s : System) (i : Nat) (t : Thread) (hi : s[i]? = some t) (ha : t.alive = true) (b : Build) (env : Env)
    (l : List Past) (hl : HasPledged t l) (p : Past) (hp : p ∈ l) (hs : .StdIO ∉ p.ps) (hv : p.v = .KillProcess)
    (ps : List Promise) (v : SeccompReturn) (j : Nat) (u : Thread) (hu : (s.step (.pledge i b env ps v))[j]? = some u)
    (hpid : u.pid = t.pid) : u.alive = false := by
  simp only [System.step, System.on, hi, ha, if_true, C52_again_without_stdio b env t l hl p hp hs hv ps v, PledgeRes.death,
    reap] at hu
  rw [List.getElem?_map] at hu
  cases hg : (s.set i t)[j]? with
  | none => simp [hg] at hu
  | some w =>
    simp only [hg, Option.map_some, Option.some.injEq] at hu
    split at hu
    · rw [← hu]
    · rename_i hne; subst hu; exact absurd hpid hne

example : HasPledged { thread0 with filters := [progOf ⟨100, 100⟩ [.RPath] 0x80000000] } [⟨⟨100, 100⟩, [.RPath], .KillProcess⟩] ∧
    Promise.StdIO ∉ [Promise.RPath] := ⟨(hasPledged_iff _ _).2 rfl, by decide⟩

/-! ## C53 -/

/-- Full claim of C53: after an Ok pledge by thread `i`, no thread of its process has a call executed that the pledge does not let
be executed. -/
def C53_full : Prop :=
  ∀ (s : System) (i : Nat) (t : Thread) (b : Build) (env : Env) (ps : List Promise) (v : SeccompReturn), s[i]? = some t →
    t.alive = true → t.filters = [] → (pledgeOverride b env t ps v).2 = .ok →
    ∀ (j : Nat) (u : Thread), (s.step (.pledge i b env ps v))[j]? = some u → u.pid = t.pid → u.alive = true →
    ∀ d, enter u d = .executed → (Past.verdict ⟨⟨t.pid, t.tid⟩, ps, v⟩ d).map outcome = some .executed

/-- C53 is false: with two threads, the one that did not pledge can still execute programs. -/
theorem C53_false_for_other_threads : ¬ C53_full := by
  intro h
  obtain ⟨prog, h1, h2⟩ := C49_first_pledge ⟨true⟩ calm thread0 rfl [.StdIO] .KillProcess (by decide) rfl rfl
  have := h [thread0, { thread0 with tid := 101 }] 0 thread0 ⟨true⟩ calm [.StdIO] .KillProcess rfl rfl rfl (by rw [h2]) 1
    { thread0 with tid := 101 } ?_ rfl rfl (mkCall 59 []) (by decide)
  · rw [past_verdict] at this
    rw [verdict_denied rfl ((denies_iff _ _ _).1 (denies_execve _)).2] at this
    revert this; decide
  · simp only [System.step, System.on, List.getElem?_cons_zero, h2, PledgeRes.death]
    rfl

/-- C53 (partial): true for a process with a single live thread at the time of the pledge (any earlier pledges with payloads of at
most sixteen bits and no Errno(0)/Trap without StdIO). Missing: processes with more threads, for which it is false. -/
theorem C53_single_thread_partial (s : System) (i : Nat) (t : Thread) (b : Build) (env : Env) (ps : List Promise)
    (v : SeccompReturn) (l : List Past) (hi : s[i]? = some t) (ha : t.alive = true) (hl : HasPledged t l)
    (hf : PayloadFits v ∧ ∀ p ∈ l, PayloadFits p.v)
    (hv : ∀ p ∈ l, .StdIO ∈ p.ps ∨ outcome p.v.toU32 ≠ .errno 0 ∧ outcome p.v.toU32 ≠ .trap)
    (hsingle : ∀ (j : Nat) (u : Thread), s[j]? = some u → u.pid = t.pid → u.alive = true → j = i)
    (hok : (pledgeOverride b env t ps v).2 = .ok) (j : Nat) (u : Thread)
    (hu : (s.step (.pledge i b env ps v))[j]? = some u) (hpid : u.pid = t.pid) (hua : u.alive = true) (d : SeccompData)
    (hd : enter u d = .executed) : (Past.verdict ⟨⟨t.pid, t.tid⟩, ps, v⟩ d).map outcome = some .executed := by
  obtain ⟨prog, h1, h2, _⟩ := C49_ok_means_enforced_partial b env t l ps v hl hv hok
  have hil : i < s.length := (List.getElem?_eq_some_iff.1 hi).1
  have hs' : s.step (.pledge i b env ps v) = s.set i (pledgeOverride b env t ps v).1 := by
    simp only [System.step, System.on, hi, ha, if_true, hok, PledgeRes.death]
  rw [hs', List.getElem?_set] at hu
  have hji : i = j := by
    by_cases hij : i = j
    · exact hij
    · rw [if_neg hij] at hu
      exact (hsingle j u hu hpid hua).symm
  subst hji
  rw [if_pos rfl, if_pos hil] at hu
  injection hu with hu
  have hlu : HasPledged u (⟨⟨t.pid, t.tid⟩, ps, v⟩ :: l) := by
    rw [hasPledged_iff] at *
    rw [← hu, h2, hl, List.map_cons]
    rw [promisesToProg_eq] at h1
    injection h1 with h1
    rw [h1]
  have := (C51_intersection u _ hlu (by
    intro p hp
    simp only [List.mem_cons] at hp
    rcases hp with rfl | hp
    · exact hf.1
    · exact hf.2 p hp) d).1 hd _ (by simp : (⟨⟨t.pid, t.tid⟩, ps, v⟩ : Past) ∈ _)
  obtain ⟨r, h3, h4⟩ := this
  rw [h3]
  simp [h4]

/-- Not vacuous: a process with one thread that pledges RPath; read is not executed any more, exit is. -/
example (d : SeccompData) (u : Thread) (h : (System.step [thread0] (.pledge 0 ⟨true⟩ calm [.RPath] .KillProcess))[0]? = some u)
    (h1 : u.pid = 100) (h2 : u.alive = true) (hd : enter u d = .executed) :=
  C53_single_thread_partial [thread0] 0 thread0 ⟨true⟩ calm [.RPath] .KillProcess [] rfl rfl rfl (by simp [PayloadFits]) (by simp)
    (by intro j u hj _ _; rcases j with _ | j; rfl; simp at hj)
    (by obtain ⟨_, _, h⟩ := C49_first_pledge ⟨true⟩ calm thread0 rfl [.RPath] .KillProcess (by decide) rfl rfl; rw [h]) 0 u h h1 h2 d hd

/-! ## C54 -/

/-- C54: a thread or process created by an executed call has exactly the filters and no_new_privs of its creator, so every system
call has the same fate for both. -/
theorem C54_inherit (s : System) (i : Nat) (t : Thread) (hi : s[i]? = some t) (ha : t.alive = true) (d : SeccompData)
    (h : Option Int) (pid tid : BitVec 32) (hd : enter t d = .executed) :
    ∃ c, (s.step (.spawn i d h pid tid))[s.length]? = some c ∧ c.pid = pid ∧ c.tid = tid ∧ c.filters = t.filters ∧
      c.nnp = t.nnp ∧ ∀ e, enter c e = enter t e := by
  refine ⟨{ t with pid := pid, tid := tid }, ?_, rfl, rfl, rfl, rfl, fun e => rfl⟩
  simp only [System.step, hi, ha, hd, and_self, if_true]
  simp

/-- Not vacuous: a thread without filters creates another. -/
example := C54_inherit [thread0] 0 thread0 rfl rfl (mkCall 56 [0x3d0f00]) none 100 101 rfl

/-- C54: the self-signal permission names the ids at the time of the pledge: in any thread `c` with that filter (a child with a
pid of its own, say), kill (62) is permitted by the pledge exactly for the pledging process's pid, and tkill (200) exactly for the
pledging thread's tid. -/
theorem C54_self_signal (p : Past) (hs : .StdIO ∈ p.ps) (hp : .Proc ∉ p.ps) (d : SeccompData) :
    (IsCall d 62 → (Allows p.ids p.ps d ↔ arg d 0 = p.ids.pid)) ∧
    (IsCall d 200 → (Allows p.ids p.ps d ↔ arg d 0 = p.ids.tid)) := by
  have key : ∀ n (x : BitVec 32), n ∈ [62, 200] → freeOf n = [.Proc] → (∀ q, ruleAt p.ids d q n ↔ q = .StdIO ∧ arg d 0 = x) →
      IsCall d n → (Allows p.ids p.ps d ↔ arg d 0 = x) := by
    intro n x hn hf hr h
    rw [allows_call h (by simp at hn; omega), hf]
    simp only [hr, List.mem_singleton]
    constructor
    · rintro ⟨q, hq, rfl | ⟨_, h⟩⟩
      · exact absurd hq hp
      · exact h
    · intro h; exact ⟨_, hs, .inr ⟨rfl, h⟩⟩
  exact ⟨key 62 _ (by simp) (by decide +kernel) fun q => Iff.rfl, key 200 _ (by simp) (by decide +kernel) fun q => Iff.rfl⟩

/-- Not vacuous: StdIO without Proc. -/
example := C54_self_signal ⟨⟨100, 100⟩, [.StdIO], .KillProcess⟩ (by decide) (by decide) (mkCall 62 [100, 15])

/-- C54, consequence: a child with another pid may not signal itself, but may signal the process that pledged. -/
theorem C54_child_cannot_signal_itself (c : Thread) (l : List Past) (hl : HasPledged c l) (hf : ∀ p ∈ l, PayloadFits p.v)
    (p : Past) (hp : p ∈ l) (hproc : .Proc ∉ p.ps) (hpid : p.ids.pid ≠ c.pid) (hv : p.v ≠ .Log ∧ p.v ≠ .Allow) (d : SeccompData)
    (hd : IsCall d 62) (harg : arg d 0 = c.pid) : enter c d ≠ .executed := by
  rw [Ne, C51_intersection c l hl hf d]
  intro h
  obtain ⟨r, h1, h2⟩ := h p hp
  have hnot : ¬ Allows p.ids p.ps d := by
    rw [allows_call hd (by decide), show freeOf 62 = [.Proc] by decide +kernel]
    rintro ⟨q, hq, h | h⟩
    · simp at h; subst h; exact hproc hq
    · exact hpid (by rw [← h.2, harg])
  rw [past_verdict, verdict_denied hd.1 (by rw [allows_iff] at hnot; exact fun hA => hnot ⟨hd.1, hA⟩)] at h1
  injection h1 with h1
  rw [← h1, outcome_of_fits _ (hf p hp)] at h2
  cases hpv : p.v <;> rw [hpv] at h2 hv <;> simp [requested] at h2 hv

/-- Thread 101 of a new process 101, with the filter of process 100. -/
example : HasPledged { thread0 with pid := 101, tid := 101, filters := [progOf ⟨100, 100⟩ [.StdIO] 0x80000000] }
    [⟨⟨100, 100⟩, [.StdIO], .KillProcess⟩] ∧ (⟨100, 100⟩ : Ids).pid ≠ 101 ∧ arg (mkCall 62 [101, 15]) 0 = 101 :=
  ⟨(hasPledged_iff _ _).2 rfl, by decide, by decide⟩

end Props
