import Verif.Props.Exact
import Verif.Spec.Size

/-!
# C64–C69: exact result of pledge, exact fate under a stack of filters, scope of a pledge, size of a filter, role of the ids
-/
set_option autoImplicit false

namespace Props
open Pledge Bpfvm Spec Kernel

/-! ## C68 -/

theorem promiseLen_eq : promiseLen = promiseSize := by
  funext p
  cases p <;> decide +kernel

/-- C68: the exact number of instructions of the filter for any list of promises. -/
theorem C68_size (b : Build) (ids : Ids) (ps : List Promise) (v : SeccompReturn) :
    ∃ prog, promisesToProg b ids ps v = .ok prog ∧ prog.length = filterSize ps := by
  refine ⟨_, promisesToProg_eq b ids ps v, ?_⟩
  rw [progOf_length, promiseLen_eq]
  rfl

theorem size_progOf (ids : Ids) (ps : List Promise) (v : BitVec 32) : (progOf ids ps v).length = filterSize ps := by
  rw [progOf_length, promiseLen_eq]
  rfl

/-- C68: so a first pledge (nothing failing outside the model) succeeds exactly if the size is at most 4096; otherwise it returns
EINVAL and installs nothing. -/
theorem C68_einval_iff (b : Build) (env : Env) (t : Thread) (ht : t.filters = []) (ps : List Promise) (v : SeccompReturn)
    (h1 : env.nnpFault = none) (h2 : env.seccompFault = none) :
    ((pledgeOverride b env t ps v).2 = .ok ↔ filterSize ps ≤ 4096) ∧
    (filterSize ps > 4096 → pledgeOverride b env t ps v = ({ t with nnp := true }, .err (.SysErr 22))) := by
  have hl : HasPledged t [] := by simp [HasPledged, ht]
  have he : enter t (recNnp env) = .executed := by
    unfold enter; rw [ht]; show outcome 0x7fff0000#32 = _; decide
  rw [pledge_executed b env t ps v [] hl he, h1, h2]
  simp only [size_progOf]
  by_cases hs : filterSize ps ≤ 4096
  · simp only [if_pos hs]
    exact ⟨⟨fun _ => hs, fun _ => trivial⟩, fun h => by omega⟩
  · simp only [if_neg hs]
    refine ⟨⟨fun h => ?_, fun h => absurd h hs⟩, fun _ => trivial⟩
    cases h

/-- Fourteen times StdIO still fits, fifteen times does not. -/
example : filterSize (List.replicate 14 .StdIO) = 4067 ∧ filterSize (List.replicate 15 .StdIO) = 4357 := by decide +kernel

/-! ## C64 -/

theorem checkRet_reported (s : Nat) (v : Int) : checkRet s (.ret v) = (reported s v).map fun e => .err (.SysErr e) := by
  unfold checkRet reported
  simp only
  by_cases h : v % 2 ^ 32 = 0
  · rw [if_neg (by omega), if_pos h, if_pos h]; rfl
  · by_cases h2 : v < 0 ∧ v.natAbs ≤ 4095
    · rw [if_pos h2, if_neg h, if_pos (by omega)]; rfl
    · rw [if_neg h2, if_neg h, if_neg h, if_neg (by omega)]; rfl

/-- How `pledge_override` ends when the thread's filters do not let its system calls be executed. -/
def refusedResult (env : Env) : Outcome → PledgeRes
  | .executed => .ok
  | .errno 0 => .ok
  | .errno (n + 1) => .err (.SysErr (n + 1))
  | .trap =>
    if env.handler then
      match reported env.errno.1 env.trapRet.1, reported env.errno.2 env.trapRet.2 with
      | some e, _ => .err (.SysErr e)
      | none, some e => .err (.SysErr e)
      | none, none => .ok
    else .died .trap
  | .killThread => .died .killThread
  | .killProcess => .died .killProcess

/-- C64, calls executed: the result and the new state of the calling thread. -/
theorem C64_executed (b : Build) (env : Env) (t : Thread) (ps : List Promise) (v : SeccompReturn) (l : List Past)
    (hl : HasPledged t l) (he : enter t (recNnp env) = .executed) :
    ∃ prog, promisesToProg b ⟨t.pid, t.tid⟩ ps v = .ok prog ∧
    (∀ e, env.nnpFault = some e → pledgeOverride b env t ps v = (t, .err (.SysErr (e.val + 1)))) ∧
    (∀ e, env.nnpFault = none → env.seccompFault = some e →
      pledgeOverride b env t ps v = ({ t with nnp := true }, .err (.SysErr (e.val + 1)))) ∧
    (env.nnpFault = none → env.seccompFault = none → filterSize ps ≤ 4096 →
      pledgeOverride b env t ps v = ({ t with nnp := true, filters := prog :: t.filters }, .ok)) ∧
    (env.nnpFault = none → env.seccompFault = none → 4096 < filterSize ps →
      pledgeOverride b env t ps v = ({ t with nnp := true }, .err (.SysErr 22))) := by
  refine ⟨_, promisesToProg_eq b _ ps v, ?_, ?_, ?_, ?_⟩
  · intro e h1
    rw [pledge_executed b env t ps v l hl he, h1]
  · intro e h1 h2
    rw [pledge_executed b env t ps v l hl he, h1, h2]
  · intro h1 h2 h3
    rw [pledge_executed b env t ps v l hl he, h1, h2]
    simp only [size_progOf, if_pos h3]
  · intro h1 h2 h3
    rw [pledge_executed b env t ps v l hl he, h1, h2]
    simp only [size_progOf, if_neg (show ¬ filterSize ps ≤ 4096 by omega)]

/-- Not vacuous: a thread without filters. -/
example := C64_executed ⟨true⟩ calm thread0 [.RPath] .Log [] rfl (by decide)

/-- C64, calls refused: nothing changes, and the result is this function of the fate that the earlier filters give to the library's
calls. In particular Ok without any effect: errno 0, or a handler that makes both calls look successful. -/
theorem C64_refused (b : Build) (env : Env) (t : Thread) (ps : List Promise) (v : SeccompReturn) (l : List Past)
    (hl : HasPledged t l) (he : enter t (recNnp env) ≠ .executed) :
    pledgeOverride b env t ps v = (t, refusedResult env (enter t (recNnp env))) := by
  have e1 : enter t (recGetpid env) = enter t (recNnp env) := enter_own hl env env _ (.inl rfl)
  have e2 : enter t (recGettid env) = enter t (recNnp env) := enter_own hl env env _ (.inr (.inl rfl))
  have e3 : enter t (recSeccomp env) = enter t (recNnp env) := enter_own hl env env _ (.inr (.inr (.inr rfl)))
  unfold pledgeOverride
  simp only [promisesToProg_eq, askIds, askId, syscall, e1, e2]
  cases ho : enter t (recNnp env) with
  | executed => exact absurd ho he
  | errno n =>
    cases n with
    | zero => cases asksIds ps <;> simp [refusedResult, checkRet_zero, e3, ho]
    | succ n =>
      cases asksIds ps <;>
        simp only [refusedResult, Bool.false_eq_true, if_true, if_false, checkRet_neg _ (n + 1) (errno_le ho) (by omega)]
  | trap =>
    cases hh : env.handler with
    | false => cases asksIds ps <;> simp [refusedResult, checkRet, Env.onTrap, hh]
    | true =>
      cases h1 : reported env.errno.1 env.trapRet.1 with
      | none =>
        cases h2 : reported env.errno.2 env.trapRet.2 <;>
          cases asksIds ps <;> simp [refusedResult, checkRet_reported, Env.onTrap, hh, h1, h2, e3, ho]
      | some e => cases asksIds ps <;> simp [refusedResult, checkRet_reported, Env.onTrap, hh, h1]
  | killThread => cases asksIds ps <;> simp [refusedResult, checkRet]
  | killProcess => cases asksIds ps <;> simp [refusedResult, checkRet]

/-- C64: the fate itself. The filters of the earlier pledges treat the library's own calls alike: those with StdIO allow them, the
others answer with their violation. -/
theorem C64_own_calls (p : Past) (env : Env) (d : SeccompData)
    (hd : d = recGetpid env ∨ d = recGettid env ∨ d = recNnp env ∨ d = recSeccomp env) :
    (.StdIO ∈ p.ps → p.verdict d = some 0x7fff0000) ∧ (.StdIO ∉ p.ps → p.verdict d = some p.v.toU32) := by
  rw [past_verdict, verdict_own p.ids p.ps _ env d hd]
  exact ⟨fun h => by rw [if_pos h]; rfl, fun h => by rw [if_neg h]⟩

/-- A thread that pledged RPath alone with violation Errno(1): pledging again gives EPERM and changes nothing. -/
example (b : Build) (ps : List Promise) (v : SeccompReturn) :
    let t : Thread := { thread0 with nnp := true, filters := [progOf ⟨100, 100⟩ [.RPath] 0x50001] }
    pledgeOverride b calm t ps v = (t, .err (.SysErr 1)) := by
  intro t
  have hl : HasPledged t [⟨⟨100, 100⟩, [.RPath], .Errno 1⟩] := (hasPledged_iff _ _).2 rfl
  have he : enter t (recNnp calm) = .errno 1 := by
    unfold enter
    rw [runFilters_pledged hl]
    simp only [List.map_cons, List.map_nil]
    rw [verdict_own _ _ _ calm _ (.inr (.inr (.inl rfl)))]
    decide
  rw [C64_refused b calm t ps v _ hl (by rw [he]; decide), he]
  rfl

/-- C64, the exact exceptions to "Ok means enforced" (C49): Ok is returned although nothing has changed exactly if the earlier filters
answer the library's calls with errno 0, or trap them and a handler leaves zero in the low 32 bits of both results. -/
theorem C64_ok_without_effect (b : Build) (env : Env) (t : Thread) (ps : List Promise) (v : SeccompReturn) (l : List Past)
    (hl : HasPledged t l) :
    ((pledgeOverride b env t ps v).2 = .ok ∧ (pledgeOverride b env t ps v).1.filters = t.filters) ↔
    (enter t (recNnp env) = .errno 0 ∨
      enter t (recNnp env) = .trap ∧ env.handler = true ∧ env.trapRet.1 % 2 ^ 32 = 0 ∧ env.trapRet.2 % 2 ^ 32 = 0) := by
  by_cases he : enter t (recNnp env) = .executed
  · rw [pledge_executed b env t ps v l hl he, he]
    have hne : ∀ p : Prog, p :: t.filters ≠ t.filters := fun p h => by simpa using congrArg List.length h
    repeat' split
    all_goals simp [hne]
  · rw [C64_refused b env t ps v l hl he]
    simp only [and_true]
    have key : ∀ s w, reported s w = none ↔ w % 2 ^ 32 = 0 := by
      intro s w
      unfold reported
      repeat' split
      all_goals simp_all
    cases ho : enter t (recNnp env) with
    | executed => exact absurd ho he
    | errno n => cases n <;> simp [refusedResult]
    | trap =>
      cases hh : env.handler with
      | false => simp [refusedResult, hh]
      | true =>
        rw [← key env.errno.1, ← key env.errno.2]
        cases g1 : reported env.errno.1 env.trapRet.1 <;> cases g2 : reported env.errno.2 env.trapRet.2 <;>
          simp [refusedResult, hh, g1, g2]
    | killThread => simp [refusedResult]
    | killProcess => simp [refusedResult]

/-- After a pledge of RPath alone with violation Trap: a handler that leaves 2^32 makes the next pledge look successful; one that
leaves 5 makes it fail with the `errno` of some earlier call (here 11). -/
example (b : Build) (ps : List Promise) (v : SeccompReturn) :
    let t : Thread := { thread0 with nnp := true, filters := [progOf ⟨100, 100⟩ [.RPath] 0x30000] }
    pledgeOverride b { calm with handler := true, trapRet := (2 ^ 32, 2 ^ 32) } t ps v = (t, .ok) ∧
    pledgeOverride b { calm with handler := true, trapRet := (5, 0), errno := (11, 0) } t ps v = (t, .err (.SysErr 11)) := by
  intro t
  have hl : HasPledged t [⟨⟨100, 100⟩, [.RPath], .Trap⟩] := (hasPledged_iff _ _).2 rfl
  have he : ∀ env, enter t (recNnp env) = .trap := by
    intro env
    unfold enter
    rw [runFilters_pledged hl]
    simp only [List.map_cons, List.map_nil]
    rw [verdict_own _ _ _ env _ (.inr (.inr (.inl rfl)))]
    decide
  constructor
  · rw [C64_refused b _ t ps v _ hl (by rw [he]; decide), he]
    exact congrArg (t, ·) (by decide)
  · rw [C64_refused b _ t ps v _ hl (by rw [he]; decide), he]
    exact congrArg (t, ·) (by decide)

/-! ## C65 -/

theorem combine_lt (init : BitVec 32) (vals : List (BitVec 32)) :
    combine init vals = init ∨ actionOnly (combine init vals) < actionOnly init := by
  induction vals generalizing init with
  | nil => exact .inl rfl
  | cons c vals ih =>
    have hcons : combine init (c :: vals) = combine (if actionOnly c < actionOnly init then c else init) vals := rfl
    rw [hcons]
    split
    · rename_i hlt
      rcases ih c with h | h
      · rw [h]; exact .inr hlt
      · exact .inr (by omega)
    · exact ih init

/-- The combined value is the first of the least ones. -/
theorem combine_first (init : BitVec 32) (vals : List (BitVec 32)) (h : combine init vals ≠ init) :
    ∃ pre post, vals = pre ++ combine init vals :: post ∧ (∀ c ∈ pre, actionOnly (combine init vals) < actionOnly c) ∧
      ∀ c ∈ post, actionOnly (combine init vals) ≤ actionOnly c := by
  induction vals generalizing init with
  | nil => exact absurd rfl h
  | cons c vals ih =>
    have hcons : combine init (c :: vals) = combine (if actionOnly c < actionOnly init then c else init) vals := rfl
    rw [hcons] at h ⊢
    by_cases hlt : actionOnly c < actionOnly init
    · rw [if_pos hlt]
      by_cases hc : combine c vals = c
      · exact ⟨[], vals, by rw [hc]; rfl, by simp, (combine_le c vals).2⟩
      · obtain ⟨pre, post, h1, h2, h3⟩ := ih c hc
        refine ⟨c :: pre, post, by rw [List.cons_append, ← h1], ?_, h3⟩
        intro x hx
        rcases List.mem_cons.1 hx with rfl | hx
        · exact (combine_lt x vals).resolve_left hc
        · exact h2 x hx
    · rw [if_neg hlt] at h ⊢
      obtain ⟨pre, post, h1, h2, h3⟩ := ih init h
      refine ⟨c :: pre, post, by rw [List.cons_append, ← h1], ?_, h3⟩
      intro x hx
      rcases List.mem_cons.1 hx with rfl | hx
      · have := (combine_lt init vals).resolve_left h
        omega
      · exact h2 x hx

/-- C65: the fate of any call of a thread with at least one pledge, for arbitrary violations: it is decided by the newest among those
pledges whose verdict has the lowest action (the upper sixteen bits, as a signed number). -/
theorem C65_lowest_action_decides (t : Thread) (l : List Past) (hl : HasPledged t l) (hne : l ≠ []) (d : SeccompData) :
    ∃ newer p older r, l = newer ++ p :: older ∧ p.verdict d = some r ∧ enter t d = outcome r ∧
      (∀ q ∈ newer, ∃ x, q.verdict d = some x ∧ actionOnly r < actionOnly x) ∧
      (∀ q ∈ older, ∃ x, q.verdict d = some x ∧ actionOnly r ≤ actionOnly x) := by
  unfold enter
  rw [runFilters_pledged hl]
  by_cases hc : combine 0x7fff0000#32 (l.map fun p => verdict p.ids p.ps p.v.toU32 d) = 0x7fff0000#32
  · cases l with
    | nil => exact absurd rfl hne
    | cons p l =>
      have hmax : actionOnly 0x7fff0000#32 = (0x7fff0000#32).toInt := by decide
      have hle := (combine_le 0x7fff0000#32 ((p :: l).map fun p => verdict p.ids p.ps p.v.toU32 d)).2
      rw [hc, hmax] at hle
      have hp := hle _ (List.mem_map.2 ⟨p, List.mem_cons_self .., rfl⟩)
      have hp' := action_le_max (verdict p.ids p.ps p.v.toU32 d)
      refine ⟨[], p, l, _, rfl, past_verdict p d, ?_, by simp, ?_⟩
      · rw [hc, (outcome_executed (verdict p.ids p.ps p.v.toU32 d)).2 (.inr (by omega))]
        decide
      · intro q hq
        refine ⟨_, past_verdict q d, ?_⟩
        have := hle _ (List.mem_map.2 ⟨q, List.mem_cons_of_mem _ hq, rfl⟩)
        omega
  · obtain ⟨pre, post, h1, h2, h3⟩ := combine_first _ _ hc
    obtain ⟨l1, l2', hl12, rfl, hl2⟩ := List.map_eq_append_iff.1 h1
    obtain ⟨p, l2, rfl, hp, rfl⟩ := List.map_eq_cons_iff.1 hl2
    refine ⟨l1, p, l2, _, hl12, past_verdict p d, by rw [hp], ?_, ?_⟩
    · intro q hq
      refine ⟨_, past_verdict q d, ?_⟩
      rw [hp]
      exact h2 _ (List.mem_map.2 ⟨q, hq, rfl⟩)
    · intro q hq
      refine ⟨_, past_verdict q d, ?_⟩
      rw [hp]
      exact h3 _ (List.mem_map.2 ⟨q, hq, rfl⟩)

/-- Two pledges that both refuse execve with errno: the newer number is the one seen. -/
example : HasPledged { thread0 with filters := [progOf ⟨100, 100⟩ [.StdIO] 0x50001, progOf ⟨100, 100⟩ [.StdIO] 0x50002] }
    [⟨⟨100, 100⟩, [.StdIO], .Errno 1⟩, ⟨⟨100, 100⟩, [.StdIO], .Errno 2⟩] := (hasPledged_iff _ _).2 rfl

/-! ## C66 -/

/-- C66: a pledge of thread `i` leaves every other thread as it is, except that those of the same process end if the pledge itself is
killed by an earlier filter; and it creates no thread. -/
theorem C66_only_the_caller (s : System) (i : Nat) (t : Thread) (hi : s[i]? = some t) (ha : t.alive = true) (b : Build) (env : Env)
    (ps : List Promise) (v : SeccompReturn) :
    (s.step (.pledge i b env ps v)).length = s.length ∧
    ∀ (j : Nat) (u : Thread), j ≠ i → s[j]? = some u →
      (s.step (.pledge i b env ps v))[j]? = some u ∨
      (s.step (.pledge i b env ps v))[j]? = some { u with alive := false } ∧ u.pid = t.pid ∧
        ∃ o, (pledgeOverride b env t ps v).2 = .died o ∧ o ≠ .killThread := by
  refine ⟨on_length _ _ _, ?_⟩
  intro j u hj hu
  simp only [System.step, System.on, hi, ha, if_true]
  have hset : ∀ x, (s.set i x)[j]? = some u := fun x => by rw [List.getElem?_set_ne (Ne.symm hj), hu]
  cases hr : (pledgeOverride b env t ps v).2 with
  | died o =>
    simp only [PledgeRes.death]
    by_cases ho : o = .killThread
    · subst ho
      left
      simp only [reap]
      rw [List.getElem?_modify, hset]
      simp [Ne.symm hj]
    · have hreap : ∀ x, reap (s.set i x) i t.pid o = (s.set i x).map fun t' => if t'.pid = t.pid then { t' with alive := false } else t' := by
        intro x; cases o <;> first | rfl | exact absurd rfl ho
      rw [hreap, List.getElem?_map, hset]
      by_cases hp : u.pid = t.pid
      · right
        exact ⟨by simp [hp], hp, o, rfl, ho⟩
      · left
        simp [hp]
  | ok => left; exact hset _
  | err e => left; exact hset _
  | panic => left; exact hset _

example : ([thread0, { thread0 with tid := 101 }] : System)[0]? = some thread0 ∧ thread0.alive = true := ⟨rfl, rfl⟩

/-! ## C69 -/

theorem frag_ids (ids ids' : Ids) (f : Filtered) (h : f ≠ .KillSelf ∧ f ≠ .TkillSelf) : frag ids f = frag ids' f := by
  cases f <;> first | rfl | exact absurd rfl h.1 | exact absurd rfl h.2

/-- C69: without StdIO the filter does not depend on who pledges: the program is the same for all process and thread ids. -/
theorem C69_no_ids_without_stdio (b : Build) (ids ids' : Ids) (ps : List Promise) (v : SeccompReturn) (h : .StdIO ∉ ps) :
    promisesToProg b ids ps v = promisesToProg b ids' ps v := by
  rw [promisesToProg_eq, promisesToProg_eq]
  have hno : ∀ p, p ≠ Promise.StdIO → ∀ f ∈ filtersOf p, f ≠ .KillSelf ∧ f ≠ .TkillSelf := by
    intro p; cases p <;> decide +kernel
  have hb : body ids (allFilters ps) = body ids' (allFilters ps) := by
    unfold body
    congr 1
    apply List.map_congr_left
    intro f hf
    unfold allFilters at hf
    rw [List.mem_flatten] at hf
    obtain ⟨fs, h1, h2⟩ := hf
    obtain ⟨p, hp, rfl⟩ := List.mem_map.1 h1
    refine frag_ids ids ids' f (hno p ?_ f h2)
    rintro rfl
    simp at hp
    exact h hp
  unfold progOf
  rw [hb]

/-- Not vacuous: Proc and RPath. -/
example := C69_no_ids_without_stdio ⟨true⟩ ⟨1, 1⟩ ⟨2, 3⟩ [.Proc, .RPath] .Log (by decide)

/-- C69: with any promises, only the verdict on kill (62) and tkill (200) depends on the ids. -/
theorem C69_ids_matter_for_signals (b b' : Build) (ids ids' : Ids) (ps : List Promise) (v : SeccompReturn) (d : SeccompData)
    (h : d.nr ≠ 62 ∧ d.nr ≠ 200) : filterVerdict b ids ps v d = filterVerdict b' ids' ps v d := by
  rw [filterVerdict_eq, filterVerdict_eq]
  congr 1
  apply verdict_congr rfl
  have key : ∀ (i j : Ids) (p : Promise), Permits i p d → Permits j p d := by
    intro i j p hp
    rcases hp with hp | hp
    · exact .inl hp
    · right
      cases hp with
      | kill_stdio h1 h2 => exact absurd h1 h.1
      | tkill_stdio h1 h2 => exact absurd h1 h.2
      | _ =>
        first
        | apply ArgRule.fcntl_stdio <;> assumption
        | apply ArgRule.fcntl_flock <;> assumption
        | apply ArgRule.mmap_stdio <;> assumption
        | apply ArgRule.mmap_protexec <;> assumption
        | apply ArgRule.mprotect_stdio <;> assumption
        | apply ArgRule.sendto_stdio <;> assumption
        | apply ArgRule.ioctl_stdio <;> assumption
        | apply ArgRule.ioctl_inet <;> assumption
        | apply ArgRule.ioctl_tty <;> assumption
        | apply ArgRule.kill_stdio <;> assumption
        | apply ArgRule.tkill_stdio <;> assumption
        | apply ArgRule.prctl_stdio <;> assumption
        | apply ArgRule.clone_stdio <;> assumption
        | apply ArgRule.clone_proc <;> assumption
        | apply ArgRule.prlimit_stdio <;> assumption
        | apply ArgRule.open_rpath <;> assumption
        | apply ArgRule.openat_read <;> assumption
        | apply ArgRule.open_wpath <;> assumption
        | apply ArgRule.openat_wpath <;> assumption
        | apply ArgRule.open_cpath <;> assumption
        | apply ArgRule.openat_cpath <;> assumption
        | apply ArgRule.creat_cpath <;> assumption
        | apply ArgRule.chmod <;> assumption
        | apply ArgRule.fchmodat <;> assumption
        | apply ArgRule.socket_inet <;> assumption
        | apply ArgRule.socket_unix <;> assumption
        | apply ArgRule.getsockopt <;> assumption
        | apply ArgRule.getsockopt_again <;> assumption
  have perm : ∀ p, Permits ids p d ↔ Permits ids' p d := fun p => ⟨key _ _ p, key _ _ p⟩
  unfold Allowed
  simp only [perm]

/-- They do depend on them: a thread may signal the process it pledged in. -/
example : Allows ⟨7, 7⟩ [.StdIO] (mkCall 62 [7, 15]) ∧ ¬ Allows ⟨8, 8⟩ [.StdIO] (mkCall 62 [7, 15]) := by
  rw [allows_call (n := 62) ⟨rfl, rfl⟩ (by decide), allows_call (n := 62) ⟨rfl, rfl⟩ (by decide)]
  have hf : freeOf 62 = [.Proc] := by decide +kernel
  rw [hf]
  refine ⟨⟨.StdIO, by simp, .inr ⟨rfl, by decide⟩⟩, ?_⟩
  rintro ⟨p, hp, h | h⟩
  · simp at hp h; rw [hp] at h; cases h
  · have := h.2; revert this; decide

end Props
