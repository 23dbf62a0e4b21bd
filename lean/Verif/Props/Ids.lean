import Verif.Proofs.Ids
import Verif.Props.Result

/-!
# C78, C79: every system call that pledge makes

`pledgeCalls` is the code with each query of an id as a system call of its own.
-/
set_option autoImplicit false

namespace Props
open Bpfvm Kernel Pledge Spec

theorem mapM_filters (ps : List Promise) : Res.mapM getFilters ([.Default] ++ ps) = .ok ((.Default :: ps).map filtersOf) :=
  mapM_ok getFilters filtersOf getFilters_eq _

/-- The part of `pledge_override` behind the generator of the program. -/
theorem pledgeCalls_goes (b : Build) (env : Env) (q : Nat → Query) (t : Thread) (ps : List Promise) (v : SeccompReturn)
    (calls : List SeccompData) (codes : List (List SockFilter))
    (h : fragsBy b env.handler t q 0 (allFilters ps) = (calls, .ok (.ok codes))) :
    ∃ prog, prog = header ++ codes.flatten ++ [⟨0x6, 0, 0, v.toU32⟩] ∧ pledgeCalls b env q t ps v =
      (let seen := prog.take (prog.length % 2 ^ 16)
       let r1 := syscall (env.onTrap env.trapRet.1) t (recNnp env) (setNnp env.nnpFault)
       match checkRet env.errno.1 r1.2 with
       | some e => (r1.1, e, calls ++ [recNnp env])
       | none =>
         let r2 := syscall (env.onTrap env.trapRet.2) r1.1 (recSeccomp env) (setSeccomp env.seccompFault seen)
         match checkRet env.errno.2 r2.2 with
         | some e => (r2.1, e, calls ++ [recNnp env, recSeccomp env])
         | none => (r2.1, .ok, calls ++ [recNnp env, recSeccomp env])) := by
  refine ⟨_, rfl, ?_⟩
  unfold pledgeCalls
  rw [mapM_filters]
  simp only
  rw [show ((Promise.Default :: ps).map filtersOf).flatten = allFilters ps from rfl, h]
  simp only [bpfHeader_eq, bpfFooter_eq]
  have e : ∀ x y : List SockFilter, ([x] ++ codes ++ [y]).flatten = x ++ codes.flatten ++ y := by intro x y; simp
  rw [e]
  rfl

/-- Does the first prctl look as if it had failed, when its fate is `o`? -/
def firstFails (env : Env) : Outcome → Bool
  | .executed => env.nnpFault.isSome
  | .errno n => n != 0
  | .trap => (reported env.errno.1 env.trapRet.1).isSome
  | _ => true

/-- The fate `o` of its calls ends the thread. -/
def fatal (env : Env) : Outcome → Bool
  | .killThread | .killProcess => true
  | .trap => !env.handler
  | _ => false

theorem goes_iff (env : Env) (o : Outcome) : Goes' env.handler o ↔ fatal env o = false := by
  unfold Goes' fatal
  cases o <;> simp

theorem pledgeCalls_eq (b : Build) (env : Env) (q : Nat → Query) (t : Thread) (l : List Past) (hl : HasPledged t l)
    (ps : List Promise) (v : SeccompReturn) :
    pledgeCalls b env q t ps v = ((pledgeOverride b env t ps v).1, (pledgeOverride b env t ps v).2,
      if fatal env (enter t (recNnp env)) then (queries q 0 (allFilters ps) ++ [recNnp env]).take 1
      else queries q 0 (allFilters ps) ++ recNnp env :: if firstFails env (enter t (recNnp env)) then [] else [recSeccomp env]) := by
  have hq : ∀ k, enter t (q k).getpid = enter t (recNnp env) ∧ enter t (q k).gettid = enter t (recNnp env) :=
    fun k => enter_query hl env (q k)
  by_cases he : enter t (recNnp env) = .executed
  · obtain ⟨codes, h1, h2⟩ := fragsBy_goes b env.handler t q _ hq (by rw [he]; exact .inl rfl) 0 (allFilters ps)
    obtain ⟨prog, hp, h3⟩ := pledgeCalls_goes b env q t ps v _ codes h1
    have hprog : prog = progOf ⟨t.pid, t.tid⟩ ps v.toU32 := by rw [hp, h2 he]; rfl
    subst hprog
    have hids : askIds env t ps = .ok ⟨t.pid, t.tid⟩ := by
      unfold askIds askId
      rw [enter_own hl env env _ (.inl rfl), enter_own hl env env _ (.inr (.inl rfl)), he]
      simp
    have e3 : enter { t with nnp := true } (recSeccomp env) = .executed := by
      rw [← he]
      exact enter_own hl env env _ (.inr (.inr (.inr rfl)))
    rw [h3]
    unfold pledgeOverride
    rw [hids]
    simp only [promisesToProg_eq, he, fatal]
    cases hn : env.nnpFault with
    | some e => simp [syscall, he, setNnp, checkRet_err, firstFails, hn]
    | none =>
      simp only [syscall, he, setNnp, checkRet_zero, firstFails, hn, e3]
      generalize setSeccomp env.seccompFault _ _ = r
      cases checkRet env.errno.2 (.ret r.2) <;> simp
  · have e3 : enter t (recSeccomp env) = enter t (recNnp env) := enter_own hl env env _ (.inr (.inr (.inr rfl)))
    rw [C64_refused b env t ps v l hl he]
    by_cases hf : fatal env (enter t (recNnp env)) = true
    · obtain ⟨i1, i2⟩ := fragsBy_stops b env.handler t q _ hq (by rw [goes_iff, hf]; simp) 0 (allFilters ps)
      have hres : refusedResult env (enter t (recNnp env)) = .died (enter t (recNnp env)) := by
        cases ho : enter t (recNnp env) with
        | executed => exact absurd ho he
        | errno n => rw [ho] at hf; cases hf
        | trap => rw [ho] at hf; simp only [fatal, Bool.not_eq_true'] at hf; simp [refusedResult, hf]
        | killThread => rfl
        | killProcess => rfl
      rw [hres, if_pos hf]
      by_cases hn : queryNrs (allFilters ps) = []
      · obtain ⟨codes, h1⟩ := i2 hn
        obtain ⟨prog, hp, h3⟩ := pledgeCalls_goes b env q t ps v _ codes h1
        have hq0 : queries q 0 (allFilters ps) = [] := by
          have := queries_nr q 0 (allFilters ps)
          rw [hn] at this
          simpa using this
        rw [h3, hq0]
        cases ho : enter t (recNnp env) with
        | executed => exact absurd ho he
        | errno n => rw [ho] at hf; cases hf
        | trap =>
          rw [ho] at hf
          simp only [fatal, Bool.not_eq_true'] at hf
          simp [syscall, ho, Env.onTrap, hf, checkRet]
        | killThread => simp [syscall, ho, checkRet]
        | killProcess => simp [syscall, ho, checkRet]
      · have h1 := i1 hn
        have hq0 : queries q 0 (allFilters ps) ≠ [] := by
          intro h0
          apply hn
          rw [← queries_nr q 0, h0]
          rfl
        unfold pledgeCalls
        rw [mapM_filters]
        simp only
        rw [show ((Promise.Default :: ps).map filtersOf).flatten = allFilters ps from rfl, h1]
        simp only [Prod.mk.injEq, true_and]
        cases hh : queries q 0 (allFilters ps) with
        | nil => exact absurd hh hq0
        | cons a as => simp
    · obtain ⟨codes, h1, -⟩ := fragsBy_goes b env.handler t q _ hq ((goes_iff _ _).2 (by simpa using hf)) 0 (allFilters ps)
      obtain ⟨prog, hp, h3⟩ := pledgeCalls_goes b env q t ps v _ codes h1
      rw [h3, if_neg hf]
      cases ho : enter t (recNnp env) with
      | executed => exact absurd ho he
      | errno n =>
        cases n with
        | zero => simp [refusedResult, checkRet_zero, syscall, e3, ho, firstFails]
        | succ n =>
          simp only [refusedResult, syscall, ho, checkRet_neg _ (n + 1) (errno_le ho) (by omega), firstFails]
          simp
      | trap =>
        rw [ho] at hf
        simp only [fatal, Bool.not_eq_true', Bool.not_eq_false] at hf
        cases g1 : reported env.errno.1 env.trapRet.1 with
        | none =>
          cases g2 : reported env.errno.2 env.trapRet.2 <;>
            simp [refusedResult, checkRet_reported, syscall, e3, ho, firstFails, Env.onTrap, hf, g1, g2]
        | some e => simp [refusedResult, checkRet_reported, syscall, ho, firstFails, Env.onTrap, hf, g1]
      | killThread => rw [ho] at hf; exact absurd rfl hf
      | killProcess => rw [ho] at hf; exact absurd rfl hf

/-- C78: in a thread whose filters all come from pledges, `pledge_override` has the same effect and the same result as if each id were
asked for once (or not at all, without StdIO), whatever the queries meet. -/
theorem C78_as_if_asked_once (b : Build) (env : Env) (q : Nat → Query) (t : Thread) (l : List Past) (hl : HasPledged t l)
    (ps : List Promise) (v : SeccompReturn) :
    ((pledgeCalls b env q t ps v).1, (pledgeCalls b env q t ps v).2.1) = pledgeOverride b env t ps v := by
  rw [pledgeCalls_eq b env q t l hl ps v]

/-- The numbers of the system calls that `pledge_override` makes if nothing goes wrong: getpid and gettid for every StdIO in the list, then
prctl twice. -/
def fullCalls (ps : List Promise) : List Nat := (List.replicate (ps.count .StdIO) [39, 186]).flatten ++ [157, 157]

/-- `prctl(PR_SET_NO_NEW_PRIVS, 1, 0, 0, 0)`: the arguments are 32-bit numbers. -/
def IsSetNnp (d : SeccompData) : Prop :=
  IsCall d 157 ∧ arg d 0 = 38 ∧ arg d 1 = 1 ∧ arg d 2 = 0 ∧ arg d 3 = 0 ∧ arg d 4 = 0

/-- `prctl(PR_SET_SECCOMP, SECCOMP_MODE_FILTER, ptr)` -/
def IsSetSeccomp (d : SeccompData) (ptr : BitVec 64) : Prop := IsCall d 157 ∧ arg d 0 = 22 ∧ arg d 1 = 2 ∧ d.args 2 = ptr

/-- C79: the system calls of a pledge, in order, for a thread whose filters all come from pledges. All of them are native calls; a prctl
call is the last or last but one; if a call ends the thread it is the first; if the first prctl seems to fail the second is not made;
otherwise all are made. -/
theorem C79_calls (b : Build) (env : Env) (q : Nat → Query) (t : Thread) (l : List Past) (hl : HasPledged t l)
    (ps : List Promise) (v : SeccompReturn) :
    let calls := (pledgeCalls b env q t ps v).2.2
    (∀ d ∈ calls, d.arch = X86_64) ∧
    ((∃ o, (pledgeCalls b env q t ps v).2.1 = .died o) → calls.map (fun d => d.nr.toNat) = (fullCalls ps).take 1) ∧
    ((∀ o, (pledgeCalls b env q t ps v).2.1 ≠ .died o) →
      (firstFails env (enter t (recNnp env)) = true → calls.map (fun d => d.nr.toNat) = (fullCalls ps).dropLast) ∧
      (firstFails env (enter t (recNnp env)) = false → calls.map (fun d => d.nr.toNat) = fullCalls ps)) := by
  intro calls
  have harch : ∀ k (fs : List Filtered), ∀ d ∈ queries q k fs, d.arch = X86_64 := by
    intro k fs
    induction fs generalizing k with
    | nil => intro d hd; cases hd
    | cons f fs ih =>
      intro d hd
      cases f <;> first
        | exact ih _ d hd
        | (simp only [queries, List.mem_cons] at hd
           rcases hd with rfl | hd
           · rfl
           · exact ih _ d hd)
  have hnr : (queries q 0 (allFilters ps)).map (fun d => d.nr.toNat) = (List.replicate (ps.count .StdIO) [39, 186]).flatten := by
    rw [queries_nr, queryNrs_all]
  have hcalls : calls = (if fatal env (enter t (recNnp env)) then (queries q 0 (allFilters ps) ++ [recNnp env]).take 1
      else queries q 0 (allFilters ps) ++ recNnp env :: if firstFails env (enter t (recNnp env)) then [] else [recSeccomp env]) := by
    show (pledgeCalls b env q t ps v).2.2 = _
    rw [pledgeCalls_eq b env q t l hl ps v]
  have hres : (pledgeCalls b env q t ps v).2.1 = (pledgeOverride b env t ps v).2 := by
    rw [pledgeCalls_eq b env q t l hl ps v]
  have hdied : (∃ o, (pledgeOverride b env t ps v).2 = .died o) ↔ fatal env (enter t (recNnp env)) = true := by
    by_cases he : enter t (recNnp env) = .executed
    · rw [pledge_executed b env t ps v l hl he, he]
      constructor
      · rintro ⟨o, h⟩
        repeat' split at h
        all_goals cases h
      · intro h; cases h
    · rw [C64_refused b env t ps v l hl he]
      cases ho : enter t (recNnp env) with
      | executed => exact absurd ho he
      | errno n => cases n <;> simp [refusedResult, fatal]
      | trap =>
        cases hh : env.handler with
        | false => simp [refusedResult, fatal, hh]
        | true =>
          cases g1 : reported env.errno.1 env.trapRet.1 <;> cases g2 : reported env.errno.2 env.trapRet.2 <;>
            simp [refusedResult, fatal, hh, g1, g2]
      | killThread => simp [refusedResult, fatal]
      | killProcess => simp [refusedResult, fatal]
  refine ⟨?_, ?_, ?_⟩
  · intro d hd
    rw [hcalls] at hd
    split at hd
    · have := List.mem_of_mem_take hd
      simp only [List.mem_append, List.mem_singleton] at this
      rcases this with h | rfl
      · exact harch _ _ d h
      · rfl
    · simp only [List.mem_append, List.mem_cons] at hd
      rcases hd with h | rfl | h
      · exact harch _ _ d h
      · rfl
      · split at h
        · cases h
        · simp only [List.mem_singleton] at h
          subst h
          rfl
  · intro h
    rw [hres] at h
    have hf := hdied.1 h
    rw [hcalls, if_pos hf, List.map_take, List.map_append, hnr]
    unfold fullCalls
    cases ps.count Promise.StdIO with
    | zero => rfl
    | succ n => rw [List.replicate_succ]; rfl
  · intro h
    have hf : ¬ fatal env (enter t (recNnp env)) = true := by
      intro hf
      obtain ⟨o, ho⟩ := hdied.2 hf
      rw [hres] at h
      exact h o ho
    rw [hcalls, if_neg hf, List.map_append, hnr]
    constructor
    · intro h1
      rw [if_pos h1]
      unfold fullCalls
      rw [List.dropLast_append_of_ne_nil (by simp)]
      rfl
    · intro h1
      rw [h1]
      rfl

/-- C79: whatever happens, the first prctl that is made sets no_new_privs and the second installs the filter; nothing else is passed. -/
theorem C79_arguments (b : Build) (env : Env) (q : Nat → Query) (t : Thread) (l : List Past) (hl : HasPledged t l)
    (ps : List Promise) (v : SeccompReturn) :
    (pledgeCalls b env q t ps v).2.2.filter (fun d => d.nr.toNat = 157) <+: [recNnp env, recSeccomp env] ∧
    IsSetNnp (recNnp env) ∧ IsSetSeccomp (recSeccomp env) env.ptr := by
  refine ⟨?_, ⟨⟨rfl, rfl⟩, low_append _ _, low_append _ _, low_append _ _, low_append _ _, low_append _ _⟩,
    ⟨⟨rfl, rfl⟩, low_append _ _, low_append _ _, rfl⟩⟩
  have hq : ∀ k (fs : List Filtered), (queries q k fs).filter (fun d => d.nr.toNat = 157) = [] := by
    intro k fs
    induction fs generalizing k with
    | nil => rfl
    | cons f fs ih => cases f <;> first | exact ih _ | simp [queries, ih, Query.getpid, Query.gettid]
  have e1 : (recNnp env).nr.toNat = 157 := rfl
  have e2 : (recSeccomp env).nr.toNat = 157 := rfl
  rw [pledgeCalls_eq b env q t l hl ps v]
  simp only
  split
  · cases hh : queries q 0 (allFilters ps) with
    | nil => simp [e1]
    | cons a as =>
      have := hq 0 (allFilters ps)
      rw [hh] at this
      simp only [List.filter_cons] at this
      split at this
      · cases this
      · rename_i ha
        simp [ha]
  · rw [List.filter_append, hq]
    split <;> simp [e1, e2]

/-- Not vacuous: a thread without filters. -/
example (b : Build) (q : Nat → Query) := C79_arguments b calm q thread0 [] rfl [.StdIO] .Log

theorem append_low (x : BitVec 64) (n : BitVec 32) (h : x.setWidth 32 = n) : (x >>> 32).setWidth 32 ++ n = x := by
  subst h
  apply BitVec.eq_of_getLsbD_eq
  intro i hi
  simp only [BitVec.getLsbD_append, BitVec.getLsbD_setWidth, BitVec.getLsbD_ushiftRight]
  by_cases h : i < 32
  · simp [h]
  · have e : 32 + (i - 32) = i := by omega
    have e2 : i - 32 < 32 := by omega
    simp [h, e2, e]

/-- C79: and the model leaves nothing out: whatever else is in the records of the four calls (instruction pointers, registers that the
library does not set, upper halves of the 32-bit arguments), there is an environment with exactly these records that is otherwise
as any other. -/
theorem C79_any_records (env : Env) (d1 d2 d3 d4 : SeccompData) (ptr : BitVec 64) (h1 : IsCall d1 39) (h2 : IsCall d2 186)
    (h3 : IsSetNnp d3) (h4 : IsSetSeccomp d4 ptr) :
    ∃ env' : Env, recGetpid env' = d1 ∧ recGettid env' = d2 ∧ recNnp env' = d3 ∧ recSeccomp env' = d4 ∧
      env'.nnpFault = env.nnpFault ∧ env'.seccompFault = env.seccompFault ∧ env'.handler = env.handler ∧
      env'.trapRet = env.trapRet ∧ env'.errno = env.errno ∧ env'.idFail = env.idFail := by
  have hnr : ∀ (d : SeccompData) n, n < 2 ^ 32 → IsCall d n → d.nr = BitVec.ofNat 32 n ∧ d.arch = 0xC000003E := by
    intro d n hn h
    refine ⟨BitVec.eq_of_toNat_eq ?_, h.1⟩
    rw [h.2, BitVec.toNat_ofNat, Nat.mod_eq_of_lt hn]
  have n1 := hnr d1 39 (by decide) h1
  have n2 := hnr d2 186 (by decide) h2
  have n3 := hnr d3 157 (by decide) h3.1
  have n4 := hnr d4 157 (by decide) h4.1
  refine ⟨{ env with
      ip := fun i => [d1.instructionPointer, d2.instructionPointer, d3.instructionPointer, d4.instructionPointer][i]
      ptr := ptr
      junk := fun i => [d1.args, d2.args, d3.args, d4.args][i]
      upper := fun i j => [fun j : Fin 5 => (d3.args j.castSucc >>> 32).setWidth 32, fun j : Fin 5 => (d4.args j.castSucc >>> 32).setWidth 32][i] j },
    ?_, ?_, ?_, ?_, rfl, rfl, rfl, rfl, rfl, rfl⟩
  · obtain ⟨nr, arch, ip, args⟩ := d1
    obtain ⟨rfl, rfl⟩ := n1
    rfl
  · obtain ⟨nr, arch, ip, args⟩ := d2
    obtain ⟨rfl, rfl⟩ := n2
    rfl
  · obtain ⟨nr, arch, ip, args⟩ := d3
    obtain ⟨rfl, rfl⟩ := n3
    obtain ⟨_, a0, a1, a2, a3, a4⟩ := h3
    unfold recNnp
    simp only [SeccompData.mk.injEq, true_and]
    refine ⟨rfl, rfl, ?_⟩
    funext i
    match i with
    | 0 => exact append_low _ _ a0
    | 1 => exact append_low _ _ a1
    | 2 => exact append_low _ _ a2
    | 3 => exact append_low _ _ a3
    | 4 => exact append_low _ _ a4
    | 5 => rfl
  · obtain ⟨nr, arch, ip, args⟩ := d4
    obtain ⟨rfl, rfl⟩ := n4
    obtain ⟨_, a0, a1, a2⟩ := h4
    unfold recSeccomp
    simp only [SeccompData.mk.injEq, true_and]
    refine ⟨rfl, rfl, ?_⟩
    funext i
    match i with
    | 0 => exact append_low _ _ a0
    | 1 => exact append_low _ _ a1
    | 2 => exact a2.symm
    | 3 => rfl
    | 4 => rfl
    | 5 => rfl

/-! ### Cases -/

/-- Thread 100 without filters pledges StdIO twice and RPath: four queries, two prctl calls, and the result is that of one StdIO. -/
example (b : Build) (q : Nat → Query) : (pledgeCalls b calm q thread0 [.StdIO, .RPath, .StdIO] .KillProcess).2.2.map (fun d => d.nr.toNat) =
      [39, 186, 39, 186, 157, 157] ∧ (pledgeCalls b calm q thread0 [.StdIO, .RPath, .StdIO] .KillProcess).2.1 = .ok := by
  have hl : HasPledged thread0 [] := rfl
  have he : enter thread0 (recNnp calm) = .executed := by decide
  have hs : filterSize [.StdIO, .RPath, .StdIO] ≤ 4096 := by decide +kernel
  have hok : (pledgeCalls b calm q thread0 [.StdIO, .RPath, .StdIO] .KillProcess).2.1 = .ok := by
    have h := congrArg Prod.snd (C78_as_if_asked_once b calm q thread0 [] hl [.StdIO, .RPath, .StdIO] .KillProcess)
    simp only at h
    rw [h, ((C68_einval_iff b calm thread0 rfl [.StdIO, .RPath, .StdIO] .KillProcess rfl rfl).1).2 hs]
  refine ⟨?_, hok⟩
  have := ((C79_calls b calm q thread0 [] hl [.StdIO, .RPath, .StdIO] .KillProcess).2.2 (by rw [hok]; intro o h; cases h)).2
    (by rw [he]; rfl)
  rw [this]
  rfl

/-- Having pledged nothing with KillProcess, it dies in its first query when it pledges StdIO. -/
example (b : Build) (q : Nat → Query) (t : Thread) (hl : HasPledged t [⟨⟨100, 100⟩, [], .KillProcess⟩]) :
    (pledgeCalls b calm q t [.StdIO] .KillProcess).2.2.map (fun d => d.nr.toNat) = [39] := by
  have he : enter t (recNnp calm) = .killProcess := by
    unfold enter
    rw [runFilters_pledged hl]
    simp only [List.map_cons, List.map_nil]
    rw [verdict_own _ _ _ calm _ (.inr (.inr (.inl rfl)))]
    decide
  have h := congrArg Prod.snd (C78_as_if_asked_once b calm q t _ hl [.StdIO] .KillProcess)
  rw [C64_refused b calm t [.StdIO] .KillProcess _ hl (by rw [he]; decide), he] at h
  simp only [refusedResult] at h
  rw [(C79_calls b calm q t _ hl [.StdIO] .KillProcess).2.1 ⟨_, h⟩]
  rfl
example : HasPledged { thread0 with nnp := true, filters := [progOf ⟨100, 100⟩ [] SeccompReturn.KillProcess.toU32] }
    [⟨⟨100, 100⟩, [], .KillProcess⟩] := (hasPledged_iff _ _).2 rfl

end Props
