import Verif.Props.Redundant
import Verif.Props.Install

/-!
# C74, C75: giving up promises one after the other; what any program needs
-/
set_option autoImplicit false

namespace Props
open Pledge Bpfvm Spec Kernel

/-! ## C74 -/

theorem setNnp_ids (fault : Option Fault) (t : Thread) : (setNnp fault t).1.pid = t.pid ∧ (setNnp fault t).1.tid = t.tid := by
  unfold setNnp; split <;> exact ⟨rfl, rfl⟩

theorem setSeccomp_ids (fault : Option Fault) (p : Prog) (t : Thread) :
    (setSeccomp fault p t).1.pid = t.pid ∧ (setSeccomp fault p t).1.tid = t.tid := by
  unfold setSeccomp
  split
  · exact ⟨rfl, rfl⟩
  · split
    · exact ⟨rfl, rfl⟩
    · split
      · exact ⟨rfl, rfl⟩
      · split <;> exact ⟨rfl, rfl⟩

theorem syscall_ids (h : Option Int) (t : Thread) (d : SeccompData) (body : Thread → Thread × Int)
    (hb : ∀ t, (body t).1.pid = t.pid ∧ (body t).1.tid = t.tid) :
    (syscall h t d body).1.pid = t.pid ∧ (syscall h t d body).1.tid = t.tid := by
  unfold syscall
  split
  · exact hb t
  · exact ⟨rfl, rfl⟩
  · split <;> exact ⟨rfl, rfl⟩
  · exact ⟨rfl, rfl⟩

theorem pledge_ids (b : Build) (env : Env) (t : Thread) (ps : List Promise) (v : SeccompReturn) :
    (pledgeOverride b env t ps v).1.pid = t.pid ∧ (pledgeOverride b env t ps v).1.tid = t.tid := by
  unfold pledgeOverride
  split
  · exact ⟨rfl, rfl⟩
  · split
    · exact ⟨rfl, rfl⟩
    · exact ⟨rfl, rfl⟩
    · simp only
      have h1 := syscall_ids (env.onTrap env.trapRet.1) t (recNnp env) (setNnp env.nnpFault) (setNnp_ids _)
      split
      · exact h1
      · rename_i prog _ _ _
        have h2 := syscall_ids (env.onTrap env.trapRet.2)
          (syscall (env.onTrap env.trapRet.1) t (recNnp env) (setNnp env.nnpFault)).1 (recSeccomp env)
          (setSeccomp env.seccompFault (prog.take (prog.length % 2 ^ 16))) (setSeccomp_ids _ _)
        split <;> exact ⟨h2.1.trans h1.1, h2.2.trans h1.2⟩

theorem okPledges_ids {t t' : Thread} {l : List Past} (h : OkPledges t l t') :
    (t'.pid = t.pid ∧ t'.tid = t.tid) ∧ ∀ p ∈ l, p.ids = ⟨t.pid, t.tid⟩ := by
  induction h with
  | none => exact ⟨⟨rfl, rfl⟩, by simp⟩
  | more l u u' b env ps v _ hok ih =>
    have hi := pledge_ids b env u ps v
    rw [hok] at hi
    refine ⟨⟨hi.1.trans ih.1.1, hi.2.trans ih.1.2⟩, fun p hp => ?_⟩
    rcases List.mem_cons.1 hp with rfl | hp
    · simp only [ih.1.1, ih.1.2]
    · exact ih.2 p hp

/-- With the default violation a stack of pledges leaves two fates: executed if every pledge allows the call, otherwise death. -/
theorem default_fate {t : Thread} {l : List Past} (hl : HasPledged t l) (hk : ∀ p ∈ l, p.v = .KillProcess) (d : SeccompData) :
    ((∀ p ∈ l, Allows p.ids p.ps d) → enter t d = .executed) ∧
    ((∃ p ∈ l, ¬ Allows p.ids p.ps d) → enter t d = .killProcess) := by
  have kill : ∀ p ∈ l, ¬ Allows p.ids p.ps d → verdict p.ids p.ps p.v.toU32 d = 0x80000000#32 := by
    intro p hp ha
    by_cases hx : d.arch = X86_64
    · rw [allows_iff] at ha
      rw [verdict_denied hx fun h => ha ⟨hx, h⟩, hk p hp]; rfl
    · exact verdict_foreign hx
  unfold enter
  rw [runFilters_pledged hl]
  constructor
  · intro hall
    have : combine 0x7fff0000#32 (l.map fun p => verdict p.ids p.ps p.v.toU32 d) = 0x7fff0000#32 := by
      rcases combine_mem 0x7fff0000#32 (l.map fun p => verdict p.ids p.ps p.v.toU32 d) with h | h
      · exact h
      · obtain ⟨p, hp, h⟩ := List.mem_map.1 h
        have ha := (allows_iff _ _ _).1 (hall p hp)
        rw [← h, verdict_allowed ha.1 ha.2]; rfl
    rw [this]; decide
  · rintro ⟨p, hp, ha⟩
    apply min_action
    refine Int.le_trans ((combine_le _ _).2 _ (List.mem_map.2 ⟨p, hp, rfl⟩)) ?_
    rw [kill p hp ha]; decide

/-- C74: a thread that starts without filters and calls `pledge` successfully any number of times, the last time with promises that
all earlier calls had too, may do exactly what the last list allows, as if it had made the last call only; everything else kills
the process. -/
theorem C74_reducing (t t' : Thread) (l : List Past) (p : Past) (d : SeccompData) (ht : t.filters = [])
    (h : OkPledges t (p :: l) t') (hk : ∀ q ∈ p :: l, q.v = .KillProcess) (hsub : ∀ q ∈ l, ∀ x ∈ p.ps, x ∈ q.ps) :
    (Allows ⟨t.pid, t.tid⟩ p.ps d → enter t' d = .executed) ∧
    (¬ Allows ⟨t.pid, t.tid⟩ p.ps d → enter t' d = .killProcess) := by
  have hl := okPledges_hasPledged t t' (p :: l) ht h (fun q hq => .inr (by rw [hk q hq]; decide))
  have hi := (okPledges_ids h).2
  obtain ⟨h1, h2⟩ := default_fate hl hk d
  refine ⟨fun ha => h1 fun q hq => ?_, fun ha => h2 ⟨p, by simp, by rw [hi p (by simp)]; exact ha⟩⟩
  rw [hi q hq]
  rcases List.mem_cons.1 hq with rfl | hq
  · exact ha
  · exact C06_monotone _ _ _ d (hsub q hq) ha

/-- C74: asking for promises back has no effect. A successful `pledge` with at least the promises of one of the thread's earlier
pledges changes the fate of no call. -/
theorem C74_widening (b : Build) (env : Env) (t t' : Thread) (l : List Past) (hl : HasPledged t l)
    (hk : ∀ q ∈ l, q.v = .KillProcess) (ps : List Promise) (hok : pledge b env t ps = (t', .ok)) (q : Past) (hq : q ∈ l)
    (hid : q.ids = ⟨t.pid, t.tid⟩) (hsub : ∀ x ∈ q.ps, x ∈ ps) (d : SeccompData) : enter t' d = enter t d := by
  have hok' : pledgeOverride b env t ps .KillProcess = (t', .ok) := hok
  obtain ⟨prog, hp, hf, _⟩ := C49_ok_means_enforced_partial b env t l ps .KillProcess hl
    (fun p hp => .inr (by rw [hk p hp]; decide)) (by rw [hok'])
  rw [hok'] at hf
  have hl' : HasPledged t' (⟨⟨t.pid, t.tid⟩, ps, .KillProcess⟩ :: l) := by
    rw [hasPledged_iff] at hl ⊢
    rw [promisesToProg_eq] at hp
    injection hp with hp
    rw [hf, List.map_cons, ← hl, ← hp]
  have hk' : ∀ p ∈ (⟨⟨t.pid, t.tid⟩, ps, .KillProcess⟩ :: l : List Past), p.v = .KillProcess := by
    intro p hp
    rcases List.mem_cons.1 hp with rfl | hp
    · rfl
    · exact hk p hp
  obtain ⟨h1, h2⟩ := default_fate hl hk d
  obtain ⟨h1', h2'⟩ := default_fate hl' hk' d
  by_cases hall : ∀ p ∈ l, Allows p.ids p.ps d
  · rw [h1 hall, h1']
    intro p hp
    rcases List.mem_cons.1 hp with rfl | hp
    · have := hall q hq
      rw [hid] at this
      exact C06_monotone _ _ _ d hsub this
    · exact hall p hp
  · obtain ⟨p, hp⟩ := Classical.not_forall.1 hall
    obtain ⟨hp, ha⟩ := Classical.not_imp.1 hp
    rw [h2 ⟨p, hp, ha⟩, h2' ⟨p, by simp [hp], ha⟩]

/-- The hypotheses of C74 can be met: StdIO and RPath first, then StdIO. -/
example : ∃ t', OkPledges thread0 [⟨⟨100, 100⟩, [.StdIO], .KillProcess⟩, ⟨⟨100, 100⟩, [.StdIO, .RPath], .KillProcess⟩] t' ∧
    enter t' (mkCall 1 [1, 0, 0]) = .executed ∧ enter t' (mkCall 78 []) = .killProcess := by
  obtain ⟨t', h⟩ := okPledges_two
  refine ⟨t', h, ?_, ?_⟩
  · refine (C74_reducing thread0 t' _ _ _ rfl h (by simp) (by simp)).1 ?_
    exact (allows_plain ⟨rfl, rfl⟩ [.StdIO] (by decide +kernel) (by decide) (by decide)).2 ⟨.StdIO, by simp, by simp⟩
  · refine (C74_reducing thread0 t' _ _ _ rfl h (by simp) (by simp)).2 ?_
    rw [allows_plain ⟨rfl, rfl⟩ [.RPath] (by decide +kernel) (by decide) (by decide)]
    decide

/-! ## C75 -/

/-- write 1, poll 7, munmap 11, brk 12, rt_sigaction 13, rt_sigprocmask 14, rt_sigreturn 15, nanosleep 35, getpid 39,
sigaltstack 131, gettid 186, futex 202, set_tid_address 218, clock_gettime 228, exit_group 231, set_robust_list 273,
getrandom 318. -/
def runtimeCalls : List Nat := [1, 7, 11, 12, 13, 14, 15, 35, 39, 131, 186, 202, 218, 228, 231, 273, 318]

/-- C75: ending a process with exit_group, returning from a signal handler, allocating with brk, freeing, waiting for a lock,
writing and the like are allowed exactly with StdIO. -/
theorem C75_runtime_needs_stdio (ids : Ids) (ps : List Promise) (d : SeccompData) (n : Nat) (hn : n ∈ runtimeCalls)
    (h : IsCall d n) : Allows ids ps d ↔ .StdIO ∈ ps := by
  have key : ∀ m ∈ runtimeCalls, freeOf m = [.StdIO] ∧ m ∉ argNumbers ∧ m ≠ 60 := by decide +kernel
  obtain ⟨h1, h2, h3⟩ := key n hn
  rw [allows_plain h _ h1 h2 h3, some_in, some_nil, or_false]

/-- Not vacuous: exit_group. -/
example := C75_runtime_needs_stdio ⟨1, 1⟩ [.RPath] (mkCall 231 []) 231 (by decide) ⟨rfl, rfl⟩

/-- C75: a thread that pledged without StdIO with the default violation cannot end its process by exit_group (which is what a
return from `main` does): the process is killed by the filter instead. Its plain exit (60) is executed if all its pledges used
the default violation. -/
theorem C75_exit_group_kills (t : Thread) (l : List Past) (hl : HasPledged t l) (hk : ∀ q ∈ l, q.v = .KillProcess) (p : Past)
    (hp : p ∈ l) (hs : .StdIO ∉ p.ps) (d : SeccompData) :
    (IsCall d 231 → enter t d = .killProcess) ∧ (IsCall d 60 → enter t d = .executed) := by
  obtain ⟨h1, h2⟩ := default_fate hl hk d
  refine ⟨fun h => h2 ⟨p, hp, ?_⟩, fun h => h1 fun q _ => C07_exit _ _ _ h⟩
  rw [C75_runtime_needs_stdio _ _ d 231 (by decide) h]
  exact hs

example : enter { thread0 with filters := [progOf ⟨100, 100⟩ [.RPath, .WPath] 0x80000000] } (mkCall 231 [0]) = .killProcess :=
  (C75_exit_group_kills _ [⟨⟨100, 100⟩, [.RPath, .WPath], .KillProcess⟩] ((hasPledged_iff _ _).2 rfl) (by simp) _
    (List.mem_singleton.2 rfl) (by decide) _).1 ⟨rfl, rfl⟩

end Props
