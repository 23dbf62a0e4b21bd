import Verif.Props.Policy
import Verif.Props.Result

/-!
# C109: pledge, from the call of the function to the fate of every later system call
-/
set_option autoImplicit false

namespace Props
open Pledge Bpfvm Spec Kernel

/-- The kernel's program is the library's or nothing changes. -/
theorem setSeccomp_any (fault : Option Fault) (ids : Ids) (ps : List Promise) (v : BitVec 32) (t : Thread) :
    (setSeccomp fault ((progOf ids ps v).take ((progOf ids ps v).length % 2 ^ 16)) t).1.filters = t.filters ∨
    (setSeccomp fault ((progOf ids ps v).take ((progOf ids ps v).length % 2 ^ 16)) t).1.filters = progOf ids ps v :: t.filters := by
  cases fault with
  | some e => exact .inl rfl
  | none =>
    have key := setSeccomp_seen ids ps v { t with nnp := true } rfl
    by_cases hn : t.nnp = true
    · have ht : ({ t with nnp := true } : Thread) = t := by cases t; simp_all
      rw [ht] at key
      rw [key]
      split
      · exact .inr rfl
      · exact .inl rfl
    · by_cases ha : t.admin = true
      · have e : (setSeccomp none ((progOf ids ps v).take ((progOf ids ps v).length % 2 ^ 16)) t).1.filters =
            (setSeccomp none ((progOf ids ps v).take ((progOf ids ps v).length % 2 ^ 16)) { t with nnp := true }).1.filters := by
          unfold setSeccomp
          simp only [ha]
          split
          · rfl
          · simp only [Bool.true_eq_false, and_false, if_false]
            split <;> rfl
        rw [e, key]
        split
        · exact .inr rfl
        · exact .inl rfl
      · left
        unfold setSeccomp
        simp only
        split
        · rfl
        · simp [hn, ha]

theorem syscall_filters (h : Option Int) (t : Thread) (d : SeccompData) (body : Thread → Thread × Int) :
    (syscall h t d body).1 = t ∨ (syscall h t d body).1 = (body t).1 := by
  unfold syscall
  split
  · exact .inr rfl
  · exact .inl rfl
  · split <;> exact .inl rfl
  · exact .inl rfl

/-- What a call of `pledge_override` leaves, whatever filters the thread has. -/
theorem pledge_filters (b : Build) (env : Env) (t : Thread) (ps : List Promise) (v : SeccompReturn) :
    (pledgeOverride b env t ps v).1.filters = t.filters ∨
    ∃ ids, askIds env t ps = .ok ids ∧ (pledgeOverride b env t ps v).1.filters = progOf ids ps v.toU32 :: t.filters := by
  unfold pledgeOverride
  cases hids : askIds env t ps with
  | error o => exact .inl rfl
  | ok ids =>
    simp only [promisesToProg_eq]
    have h1 : (syscall (env.onTrap env.trapRet.1) t (recNnp env) (setNnp env.nnpFault)).1.filters = t.filters := by
      rcases syscall_filters (env.onTrap env.trapRet.1) t (recNnp env) (setNnp env.nnpFault) with h | h
      · rw [h]
      · rw [h]; unfold setNnp; split <;> rfl
    split
    · exact .inl h1
    · rename_i hc
      have h2 := syscall_filters (env.onTrap env.trapRet.2) (syscall (env.onTrap env.trapRet.1) t (recNnp env) (setNnp env.nnpFault)).1
        (recSeccomp env) (setSeccomp env.seccompFault ((progOf ids ps v.toU32).take ((progOf ids ps v.toU32).length % 2 ^ 16)))
      have h3 := setSeccomp_any env.seccompFault ids ps v.toU32
        (syscall (env.onTrap env.trapRet.1) t (recNnp env) (setNnp env.nnpFault)).1
      rw [h1] at h3
      split <;> (simp only; rcases h2 with h | h <;> rw [h])
      · exact .inl h1
      · exact h3.imp_right fun h => ⟨ids, rfl, h⟩
      · exact .inl h1
      · exact h3.imp_right fun h => ⟨ids, rfl, h⟩

/-- A call of `pledge` changes neither the ids of the thread nor whether it lives. -/
theorem pledge_keeps (b : Build) (env : Env) (t : Thread) (ps : List Promise) :
    (pledge b env t ps).1.pid = t.pid ∧ (pledge b env t ps).1.alive = t.alive := by
  have h1 : ∀ h d f (t : Thread), (syscall h t d (setNnp f)).1.pid = t.pid ∧ (syscall h t d (setNnp f)).1.alive = t.alive := by
    intro h d f t
    rcases syscall_filters h t d (setNnp f) with e | e <;> rw [e]
    · exact ⟨rfl, rfl⟩
    · unfold setNnp; split <;> exact ⟨rfl, rfl⟩
  have h2 : ∀ h d f p (t : Thread), (syscall h t d (setSeccomp f p)).1.pid = t.pid ∧ (syscall h t d (setSeccomp f p)).1.alive = t.alive := by
    intro h d f p t
    rcases syscall_filters h t d (setSeccomp f p) with e | e <;> rw [e]
    · exact ⟨rfl, rfl⟩
    · unfold setSeccomp
      split
      · exact ⟨rfl, rfl⟩
      · repeat' split
        all_goals exact ⟨rfl, rfl⟩
  unfold pledge pledgeOverride
  split
  · exact ⟨rfl, rfl⟩
  · split
    · exact ⟨rfl, rfl⟩
    · exact ⟨rfl, rfl⟩
    · simp only
      split
      · exact h1 _ _ _ _
      · split
        · exact ⟨(h2 _ _ _ _ _).1.trans (h1 _ _ _ _).1, (h2 _ _ _ _ _).2.trans (h1 _ _ _ _).2⟩
        · exact ⟨(h2 _ _ _ _ _).1.trans (h1 _ _ _ _).1, (h2 _ _ _ _ _).2.trans (h1 _ _ _ _).2⟩

/-- Ids that a call of the library may find in this thread: the thread's own, or what `getpid` and `gettid` seem to return if a filter
keeps them from being executed. -/
def Found (env : Env) (t : Thread) (ids : Ids) : Prop :=
  (ids.pid = t.pid ∨ enter t (recGetpid env) ≠ .executed ∧ ids.pid = env.idFail.pid) ∧
  (ids.tid = t.tid ∨ enter t (recGettid env) ≠ .executed ∧ ids.tid = env.idFail.tid)

theorem askId_found {env : Env} {t : Thread} {d : SeccompData} {real fail x : BitVec 32} (h : askId env t d real fail = .ok x) :
    x = real ∨ enter t d ≠ .executed ∧ x = fail := by
  unfold askId at h
  revert h
  cases he : enter t d with
  | executed => intro h; injection h with h; exact .inl h.symm
  | errno n => intro h; injection h with h; exact .inr ⟨by simp, h.symm⟩
  | trap =>
    simp only
    split
    · intro h; injection h with h; exact .inr ⟨by simp, h.symm⟩
    · intro h; cases h
  | killThread => intro h; cases h
  | killProcess => intro h; cases h

theorem askIds_found {env : Env} {t : Thread} {ps : List Promise} {ids : Ids} (h : askIds env t ps = .ok ids) : Found env t ids := by
  unfold askIds at h
  revert h
  split
  · split
    · intro h; cases h
    · split
      · intro h; cases h
      · rename_i h1 _ _ h2
        intro h
        injection h with h
        subst h
        exact ⟨askId_found h1, askId_found h2⟩
  · intro h; injection h with h; subst h; exact ⟨.inl rfl, .inl rfl⟩

/-- C109: a call of `pledge_override` leaves the filters of the thread as they are, or adds one complete filter for exactly the list and
the violation it was given. This is so whatever filters the thread has, also foreign ones. -/
theorem C109_all_or_nothing (b : Build) (env : Env) (t : Thread) (ps : List Promise) (v : SeccompReturn) :
    (pledgeOverride b env t ps v).1.filters = t.filters ∨
    ∃ ids prog, Found env t ids ∧ promisesToProg b ids ps v = .ok prog ∧ (pledgeOverride b env t ps v).1.filters = prog :: t.filters := by
  rcases pledge_filters b env t ps v with h | ⟨ids, h1, h2⟩
  · exact .inl h
  · exact .inr ⟨ids, _, askIds_found h1, promisesToProg_eq b ids ps v, h2⟩

/-- A filter with the default violation on top of any stack. -/
theorem plain_top (ids : Ids) (ps : List Promise) (fs : List Prog) (d : SeccompData) :
    (d.arch = X86_64 ∧ Allowed ids ps d → outcome (runFilters (progOf ids ps 0x80000000#32 :: fs) d) = outcome (runFilters fs d)) ∧
    (¬ (d.arch = X86_64 ∧ Allowed ids ps d) → outcome (runFilters (progOf ids ps 0x80000000#32 :: fs) d) = .killProcess) := by
  have hc : ∀ c : BitVec 32, runFilters (progOf ids ps 0x80000000#32 :: fs) d =
      combine (if actionOnly (cur (progOf ids ps 0x80000000#32) d) < actionOnly 0x7fff0000#32 then cur (progOf ids ps 0x80000000#32) d
        else 0x7fff0000#32) (fs.map fun f => cur f d) := by
    intro _
    rw [runFilters_eq]; rfl
  rw [hc 0, cur_progOf]
  constructor
  · rintro ⟨ha, h⟩
    rw [verdict_allowed ha h, if_neg (by decide), ← runFilters_eq]
  · intro h
    have hv : verdict ids ps 0x80000000#32 d = 0x80000000#32 := by
      by_cases ha : d.arch = X86_64
      · exact verdict_denied ha fun g => h ⟨ha, g⟩
      · exact verdict_foreign ha
    rw [hv, if_pos (by decide)]
    have hl := (combine_le 0x80000000#32 (fs.map fun f => cur f d)).1
    generalize combine 0x80000000#32 (fs.map fun f => cur f d) = r at hl
    have : r &&& 0xffff0000#32 = 0x80000000#32 := by
      have h1 : actionOnly 0x80000000#32 = -2147483648 := by decide
      rw [h1] at hl
      unfold actionOnly at hl
      apply BitVec.eq_of_toInt_eq
      rw [show (0x80000000#32).toInt = -2147483648 by decide]
      have h2 : (-2147483648 : Int) ≤ (r &&& 0xffff0000#32).toInt := BitVec.le_toInt (x := r &&& 0xffff0000#32)
      omega
    unfold outcome
    simp only [this]
    rw [if_neg (by decide), if_neg (by decide), if_neg (by decide), if_neg (by decide), if_neg (by decide), if_neg (by decide),
      if_neg (by decide)]

/-- C109: after `pledge` has taken effect, every call that the list permits has the fate it had before, and every other call kills the
process, whatever other filters the thread has. -/
theorem C109_fate (b : Build) (env : Env) (t : Thread) (ps : List Promise) (h : (pledge b env t ps).1.filters ≠ t.filters) :
    ∃ ids, Found env t ids ∧ ∀ d,
      (d.arch = X86_64 ∧ Allowed ids ps d → enter (pledge b env t ps).1 d = enter t d) ∧
      (¬ (d.arch = X86_64 ∧ Allowed ids ps d) → enter (pledge b env t ps).1 d = .killProcess) := by
  rcases pledge_filters b env t ps .KillProcess with h' | ⟨ids, h1, h2⟩
  · exact absurd h' h
  · refine ⟨ids, askIds_found h1, fun d => ?_⟩
    have e : (pledge b env t ps).1.filters = progOf ids ps 0x80000000#32 :: t.filters := h2
    unfold enter
    rw [e]
    exact plain_top ids ps t.filters d

/-- Not vacuous: the first pledge of a thread. -/
example := C109_fate ⟨true⟩ calm thread0 [.RPath] (by
  obtain ⟨_, _, h⟩ := C49_first_pledge ⟨true⟩ calm thread0 rfl [.RPath] .KillProcess (by decide) rfl rfl
  show (pledgeOverride _ _ _ _ _).1.filters ≠ _
  rw [h]; simp [thread0])

/-- C109: the first `pledge` of a thread, if the kernel has no reason of its own to refuse and the list is not too long: it returns `Ok`,
no new privileges can be gained, the calls that the list permits are executed and all others kill the process. -/
theorem C109_first (b : Build) (env : Env) (t : Thread) (ht : t.filters = []) (ps : List Promise) (h1 : env.nnpFault = none)
    (h2 : env.seccompFault = none) (hs : filterSize ps ≤ 4096) :
    ∃ t', pledge b env t ps = (t', .ok) ∧ t'.nnp = true ∧ ∀ d,
      (d.arch = X86_64 ∧ Allowed ⟨t.pid, t.tid⟩ ps d → enter t' d = .executed) ∧
      (¬ (d.arch = X86_64 ∧ Allowed ⟨t.pid, t.tid⟩ ps d) → enter t' d = .killProcess) := by
  have hl : HasPledged t [] := (hasPledged_iff t []).2 ht
  have he : ∀ d, enter t d = .executed := by intro d; unfold enter; rw [ht]; show outcome 0x7fff0000#32 = _; decide
  have e := pledge_executed b env t ps .KillProcess [] hl (he _)
  rw [h1, h2] at e
  simp only at e
  have hlen : (progOf ⟨t.pid, t.tid⟩ ps SeccompReturn.KillProcess.toU32).length ≤ 4096 := by
    obtain ⟨prog, hp, hsz⟩ := C68_size b ⟨t.pid, t.tid⟩ ps .KillProcess
    rw [promisesToProg_eq] at hp
    injection hp with hp
    rw [hp, hsz]; exact hs
  rw [if_pos hlen] at e
  refine ⟨_, e, rfl, fun d => ?_⟩
  have := plain_top ⟨t.pid, t.tid⟩ ps t.filters d
  exact ⟨fun h => (this.1 h).trans (he d), this.2⟩

/-- C109: a program that uses nothing but `pledge`: `Ok` means that the call has taken effect with the ids of the calling thread. -/
theorem C109_ok (b : Build) (env : Env) (t : Thread) (l : List Past) (hl : HasPledged t l) (hk : ∀ p ∈ l, p.v = .KillProcess)
    (ps : List Promise) (hok : (pledge b env t ps).2 = .ok) (d : SeccompData) :
    (d.arch = X86_64 ∧ Allowed ⟨t.pid, t.tid⟩ ps d → enter (pledge b env t ps).1 d = enter t d) ∧
    (¬ (d.arch = X86_64 ∧ Allowed ⟨t.pid, t.tid⟩ ps d) → enter (pledge b env t ps).1 d = .killProcess) := by
  obtain ⟨prog, hp, hf, _⟩ := C49_ok_means_enforced_partial b env t l ps .KillProcess hl
    (fun p hp => .inr (by rw [hk p hp]; decide)) hok
  rw [promisesToProg_eq] at hp
  injection hp with hp
  have e : (pledge b env t ps).1.filters = progOf ⟨t.pid, t.tid⟩ ps 0x80000000#32 :: t.filters := by
    rw [← hp] at hf; exact hf
  unfold enter
  rw [e]
  exact plain_top _ ps t.filters d

/-- Not vacuous: the first pledge of a thread. -/
example := C109_ok ⟨true⟩ calm thread0 [] ((hasPledged_iff _ _).2 rfl) (by simp) [.RPath] (by
  obtain ⟨_, _, h⟩ := C49_first_pledge ⟨true⟩ calm thread0 rfl [.RPath] .KillProcess (by decide) rfl rfl
  exact congrArg Prod.snd h) (mkCall 59 [])

/-- C109: such a call ends every thread of the process, also those that never called `pledge`, and whatever handler there is for
SIGSYS. -/
theorem C109_process (b : Build) (env : Env) (t : Thread) (ps : List Promise) (s : System) (i : Nat) (w : Option Int)
    (hf : (pledge b env t ps).1.filters ≠ t.filters) (hi : s[i]? = some (pledge b env t ps).1) (ha : t.alive = true) :
    ∃ ids, Found env t ids ∧ ∀ d, ¬ (d.arch = X86_64 ∧ Allowed ids ps d) →
      ∀ (j : Nat) (u : Thread), (s.step (.call i d w))[j]? = some u → u.pid = t.pid → u.alive = false := by
  obtain ⟨ids, h1, h2⟩ := C109_fate b env t ps hf
  refine ⟨ids, h1, fun d hd j u hu hp => ?_⟩
  have he := (h2 d).2 hd
  have hk := pledge_keeps b env t ps
  generalize (pledge b env t ps).1 = t' at *
  have hs : s.step (.call i d w) = s.map fun x => if x.pid = t'.pid then { x with alive := false } else x := by
    unfold System.step System.on
    simp only [hi, hk.2, ha, if_true]
    have : deathOf (syscall w t' d fun t => (t, 0)).2 = some .killProcess := by unfold syscall; rw [he]; rfl
    rw [this]
    simp only [reap]
    obtain ⟨hlt, e⟩ := List.getElem?_eq_some_iff.1 hi
    rw [← e, List.set_getElem_self hlt]
  rw [hs, List.getElem?_map] at hu
  obtain ⟨x, hx, rfl⟩ := Option.map_eq_some_iff.1 hu
  revert hp
  split
  · intro _; rfl
  · rename_i hne
    intro hp
    exact absurd (hp.trans hk.1.symm) hne

/-- For the examples: a thread with a foreign filter that lets everything pass. -/
def guarded : Thread := { thread0 with filters := [[⟨0x06#16, 0, 0, 0x7fff0000#32⟩]], nnp := true }

theorem guarded_free (d : SeccompData) (t : Thread) (h : t.filters = guarded.filters) : enter t d = .executed := by
  have hr : run (fun _ => 0) [⟨0x06#16, 0, 0, 0x7fff0000#32⟩] d.words = some 0x7fff0000#32 := by
    unfold run
    rw [runFrom]
    rfl
  unfold enter
  rw [h]
  show outcome (if actionOnly ((run (fun _ => 0) [⟨0x06#16, 0, 0, 0x7fff0000#32⟩] d.words).getD 0) < actionOnly 0x7fff0000#32 then _ else _) = _
  rw [hr]
  decide

theorem guarded_pledge : (pledge ⟨true⟩ calm guarded [.RPath]).1.filters = progOf ⟨100, 100⟩ [.RPath] 0x80000000#32 :: guarded.filters ∧
    (pledge ⟨true⟩ calm guarded [.RPath]).2 = .ok := by
  have hids : askIds calm guarded [.RPath] = .ok ⟨100, 100⟩ := rfl
  unfold pledge pledgeOverride
  rw [hids]
  simp only [promisesToProg_eq]
  have e1 : syscall (calm.onTrap calm.trapRet.1) guarded (recNnp calm) (setNnp calm.nnpFault) = (guarded, .ret 0) := by
    unfold syscall
    rw [guarded_free _ _ rfl]
    rfl
  have e2 : syscall (calm.onTrap calm.trapRet.2) guarded (recSeccomp calm) (setSeccomp calm.seccompFault
      ((progOf ⟨100, 100⟩ [.RPath] SeccompReturn.KillProcess.toU32).take
        ((progOf ⟨100, 100⟩ [.RPath] SeccompReturn.KillProcess.toU32).length % 2 ^ 16))) =
      ({ guarded with filters := progOf ⟨100, 100⟩ [.RPath] 0x80000000#32 :: guarded.filters }, .ret 0) := by
    unfold syscall
    rw [guarded_free _ _ rfl]
    simp only
    have hs : calm.seccompFault = none := rfl
    rw [hs, setSeccomp_seen _ _ _ _ rfl, if_pos (by decide +kernel)]
    rfl
  rw [e1]
  simp only [checkRet_zero]
  rw [e2]
  simp only [checkRet_zero]
  exact ⟨trivial, trivial⟩

/-- C109, for the examples: `pledge` takes effect in a thread with a foreign filter, permits reading a link and refuses execve. -/
example : (pledge ⟨true⟩ calm guarded [.RPath]).1.filters ≠ guarded.filters ∧
    (Allowed ⟨100, 100⟩ [.RPath] (mkCall 89 []) ∧ (mkCall 89 []).arch = X86_64) ∧ ¬ Allowed ⟨100, 100⟩ [.RPath] (mkCall 59 []) := by
  refine ⟨by rw [guarded_pledge.1]; simp, ⟨.inr ⟨.RPath, by simp, .inl ⟨"readlink", [.RPath], by decide, by decide⟩⟩, rfl⟩, ?_⟩
  intro h
  have hw : Allows ⟨100, 100⟩ [.RPath] (mkCall 59 []) := (allows_iff _ _ _).2 ⟨rfl, h⟩
  exact absurd ((C34_exec ⟨100, 100⟩ [.RPath] (mkCall 59 []) (.inl ⟨rfl, rfl⟩)).1.1 hw) (by decide)

example : calm.nnpFault = none ∧ calm.seccompFault = none ∧ thread0.filters = [] ∧ filterSize [.StdIO, .RPath, .Inet] ≤ 4096 := by
  decide

example : HasPledged thread0 [] ∧ (pledge ⟨true⟩ calm thread0 [.StdIO, .RPath]).2 = .ok := by
  obtain ⟨t', h, _⟩ := C109_first ⟨true⟩ calm thread0 rfl [.StdIO, .RPath] rfl rfl (by decide)
  exact ⟨(hasPledged_iff _ _).2 rfl, by rw [h]⟩

/-- C109: two threads, of which only the first has called `pledge`. -/
example : ∃ s : System, s[0]? = some (pledge ⟨true⟩ calm guarded [.RPath]).1 ∧ s[1]? = some { guarded with tid := 101 } ∧
    (pledge ⟨true⟩ calm guarded [.RPath]).1.filters ≠ guarded.filters ∧ guarded.alive = true :=
  ⟨[_, _], rfl, rfl, by rw [guarded_pledge.1]; simp, rfl⟩

end Props
