import Verif.Spec.Sched
import Verif.Proofs.Stack

/-!
# Schedules of pledge_override are histories of indivisible calls
-/
set_option autoImplicit false

namespace Pledge
open Bpfvm Kernel Spec

/-! ## One call -/

/-- The call `j` of thread `t`, left alone, ends as `r` and leaves the thread as `t'`. -/
inductive Finishes : Thread → Job → Thread → PledgeRes → Prop
  | last {t j t' r} : j.next t = (t', .inr r) → Finishes t j t' r
  | more {t j t1 j1 t' r} : j.next t = (t1, .inl j1) → Finishes t1 j1 t' r → Finishes t j t' r

theorem finishes_start (b : Build) (env : Env) (t : Thread) (ps : List Promise) (v : SeccompReturn) :
    Finishes t ⟨b, env, ps, v, .start⟩ (pledgeOverride b env t ps v).1 (pledgeOverride b env t ps v).2 := by
  have armed : ∀ (t : Thread) (prog : List SockFilter) (t' : Thread) (r : PledgeRes),
      (let r2 := syscall (env.onTrap env.trapRet.2) t (recSeccomp env)
        (setSeccomp env.seccompFault (prog.take (prog.length % 2 ^ 16)))
       match checkRet env.errno.2 r2.2 with
       | some e => (r2.1, e)
       | none => (r2.1, PledgeRes.ok)) = (t', r) → Finishes t ⟨b, env, ps, v, .armed prog⟩ t' r := by
    intro t prog t' r h
    apply Finishes.last
    simp only [Job.next]
    dsimp only at h
    split at h <;> rename_i hc <;> simp only [hc] <;> cases h <;> rfl
  have ids : ∀ (is : Ids), askIds env t ps = .ok is →
      Finishes t ⟨b, env, ps, v, .ids is⟩ (pledgeOverride b env t ps v).1 (pledgeOverride b env t ps v).2 := by
    intro is h
    unfold pledgeOverride
    rw [h]
    cases hp : promisesToProg b is ps v with
    | err e => exact .last (by simp only [Job.next, hp])
    | panic => exact .last (by simp only [Job.next, hp])
    | ok prog =>
      cases hc : checkRet env.errno.1 (syscall (env.onTrap env.trapRet.1) t (recNnp env) (setNnp env.nnpFault)).2 with
      | some e => exact .last (by simp only [Job.next, hp, hc])
      | none =>
        refine .more (t1 := (syscall (env.onTrap env.trapRet.1) t (recNnp env) (setNnp env.nnpFault)).1)
          (j1 := ⟨b, env, ps, v, .armed prog⟩) (by simp only [Job.next, hp, hc]) (armed _ prog _ _ ?_)
        simp only [hp, hc]
        exact Prod.ext rfl rfl
  by_cases ha : asksIds ps = true
  · cases h1 : askId env t (recGetpid env) t.pid env.idFail.pid with
    | error o =>
      have : askIds env t ps = .error o := by simp only [askIds, ha, if_true, h1]
      unfold pledgeOverride
      rw [this]
      exact .last (by simp only [Job.next, ha, if_true, h1])
    | ok pid =>
      refine .more (t1 := t) (j1 := ⟨b, env, ps, v, .pid pid⟩) (by simp only [Job.next, ha, if_true, h1]) ?_
      cases h2 : askId env t (recGettid env) t.tid env.idFail.tid with
      | error o =>
        have : askIds env t ps = .error o := by simp only [askIds, ha, if_true, h1, h2]
        unfold pledgeOverride
        rw [this]
        exact .last (by simp only [Job.next, h2])
      | ok tid =>
        exact .more (j1 := ⟨b, env, ps, v, .ids ⟨pid, tid⟩⟩) (by simp only [Job.next, h2])
          (ids ⟨pid, tid⟩ (by simp only [askIds, ha, if_true, h1, h2]))
  · exact .more (j1 := ⟨b, env, ps, v, .ids ⟨t.pid, t.tid⟩⟩) (by simp only [Job.next, ha]; rfl)
      (ids _ (by simp only [askIds, ha]; rfl))

theorem nnp_same (h : Option Int) (t : Thread) (d : SeccompData) (f : Option Fault) :
    SameButNnp (syscall h t d (setNnp f)).1 t := by
  have hr : SameButNnp t t := ⟨rfl, rfl, rfl, rfl, rfl, id⟩
  have : SameButNnp (setNnp f t).1 t := by
    unfold setNnp
    split
    · exact hr
    · exact ⟨rfl, rfl, rfl, rfl, rfl, fun _ => rfl⟩
  unfold syscall
  split
  · exact this
  · exact hr
  · split <;> exact hr
  · exact hr

/-- Before its last step a call changes nothing but no_new_privs. -/
theorem next_inl (j : Job) (t t' : Thread) (j' : Job) (h : j.next t = (t', .inl j')) :
    SameButNnp t' t ∧ j'.b = j.b ∧ j'.env = j.env ∧ j'.ps = j.ps ∧ j'.v = j.v := by
  have hr : SameButNnp t t := ⟨rfl, rfl, rfl, rfl, rfl, id⟩
  unfold Job.next at h
  split at h
  · split at h
    · split at h <;> cases h; exact ⟨hr, rfl, rfl, rfl, rfl⟩
    · cases h; exact ⟨hr, rfl, rfl, rfl, rfl⟩
  · split at h <;> cases h; exact ⟨hr, rfl, rfl, rfl, rfl⟩
  · split at h
    · cases h
    · cases h
    · dsimp only at h
      split at h <;> cases h
      exact ⟨nnp_same _ _ _ _, rfl, rfl, rfl, rfl⟩
  · dsimp only at h
    split at h <;> cases h

/-! ## reap -/

/-- `reap`, thread by thread. -/
def dies (k i : Nat) (pid : BitVec 32) (o : Outcome) (t : Thread) : Bool :=
  match o with
  | .killThread => k == i
  | _ => t.pid == pid

def reaped (k i : Nat) (pid : BitVec 32) (o : Outcome) (t : Thread) : Thread :=
  if dies k i pid o t then { t with alive := false } else t

theorem reap_getElem? (s : System) (i : Nat) (pid : BitVec 32) (o : Outcome) (k : Nat) :
    (reap s i pid o)[k]? = (s[k]?).map (reaped k i pid o) := by
  have hm : ∀ o', o' ≠ Outcome.killThread →
      (s.map fun t => if t.pid = pid then { t with alive := false } else t)[k]? = (s[k]?).map (reaped k i pid o') := by
    intro o' ho
    rw [List.getElem?_map]
    congr 1
    funext t
    unfold reaped dies
    cases o' <;> simp at ho ⊢
  unfold reap
  cases o with
  | killThread =>
    simp only [List.getElem?_modify]
    by_cases h : i = k
    · subst h
      simp only [if_true]
      congr 1
      funext t
      simp [reaped, dies]
    · simp only [h, if_false, Option.map_eq_map, Option.map_id']
      cases s[k]? <;> simp [reaped, dies, Ne.symm h]
  | executed => exact hm _ (by simp)
  | errno n => exact hm _ (by simp)
  | trap => exact hm _ (by simp)
  | killProcess => exact hm _ (by simp)

theorem reaped_same {t u : Thread} (h : SameButNnp t u) (k i : Nat) (pid : BitVec 32) (o : Outcome) :
    SameButNnp (reaped k i pid o t) (reaped k i pid o u) := by
  obtain ⟨h1, h2, h3, h4, h5, h6⟩ := h
  have : dies k i pid o t = dies k i pid o u := by unfold dies; rw [h1]
  unfold reaped
  rw [this]
  split
  · exact ⟨h1, h2, h3, h4, rfl, h6⟩
  · exact ⟨h1, h2, h3, h4, h5, h6⟩

theorem reaped_alive {t : Thread} {k i : Nat} {pid : BitVec 32} {o : Outcome} (h : (reaped k i pid o t).alive = true) :
    reaped k i pid o t = t := by
  unfold reaped at *
  split at h
  · cases h
  · rename_i hd
    simp [hd]

/-! ## The simulation -/

/-- A slot and the thread of the indivisible history at the same position. -/
def Corr (sl : Slot) (c : Thread) : Prop :=
  match sl.job with
  | none => sl.thread = c
  | some j => SameButNnp sl.thread c ∧ (sl.thread.alive = true →
      Finishes sl.thread j (pledgeOverride j.b j.env c j.ps j.v).1 (pledgeOverride j.b j.env c j.ps j.v).2)

theorem Corr.same {sl : Slot} {c : Thread} (h : Corr sl c) : SameButNnp sl.thread c := by
  unfold Corr at h
  split at h
  · rw [h]; exact ⟨rfl, rfl, rfl, rfl, rfl, id⟩
  · exact h.1

theorem Corr.reaped {sl : Slot} {c : Thread} (h : Corr sl c) (k i : Nat) (pid : BitVec 32) (o : Outcome) :
    Corr ⟨reaped k i pid o sl.thread, sl.job⟩ (reaped k i pid o c) := by
  obtain ⟨t, job⟩ := sl
  cases job with
  | none =>
    have : t = c := h
    subst this; rfl
  | some j =>
    obtain ⟨h1, h2⟩ : SameButNnp t c ∧ _ := h
    refine ⟨reaped_same h1 k i pid o, fun ha => ?_⟩
    have ht := reaped_alive ha
    have hc : Pledge.reaped k i pid o c = c := by
      apply reaped_alive
      rw [← (reaped_same h1 k i pid o).2.2.2.2.1]; exact ha
    simp only [ht, hc] at ha ⊢
    exact h2 ha

/-- Slots and threads of the indivisible history. -/
def Corrs (slots : List Slot) (s : System) : Prop :=
  slots.length = s.length ∧ ∀ (k : Nat) (sl : Slot) (c : Thread), slots[k]? = some sl → s[k]? = some c → Corr sl c

theorem matches_begin (s : System) : Corrs (begin s).slots s := by
  refine ⟨by simp [begin], ?_⟩
  intro k sl c h1 h2
  simp only [begin, List.getElem?_map, h2, Option.map_some, Option.some.injEq] at h1
  subst h1; rfl

theorem matches_set {slots : List Slot} {s : System} (h : Corrs slots s) (i : Nat) (sl : Slot) (c : Thread)
    (hm : Corr sl c) : Corrs (slots.set i sl) (s.set i c) := by
  refine ⟨by simp [h.1], ?_⟩
  intro k sl' c' h1 h2
  rw [List.getElem?_set] at h1 h2
  by_cases hk : i = k
  · subst hk
    rw [if_pos rfl] at h1 h2
    split at h1
    · rename_i hl
      rw [if_pos (by rw [← h.1]; exact hl)] at h2
      cases h1; cases h2; exact hm
    · cases h1
  · rw [if_neg hk] at h1 h2
    exact h.2 k sl' c' h1 h2

theorem rejoin_get (slots : List Slot) (s : System) (k : Nat) :
    (rejoin slots s)[k]? = (s[k]?).map fun t => ⟨t, (slots[k]?).bind Slot.job⟩ := by
  simp [rejoin, List.getElem?_mapIdx]

theorem reap_len (s : System) (i : Nat) (pid : BitVec 32) (o : Outcome) : (reap s i pid o).length = s.length :=
  reap_length s i pid o

theorem matches_reap {slots : List Slot} {s : System} (h : Corrs slots s) (i : Nat) (pid : BitVec 32) (o : Outcome) :
    Corrs (rejoin slots (reap (slots.map Slot.thread) i pid o)) (reap s i pid o) := by
  refine ⟨by simp [rejoin, reap_length, h.1], ?_⟩
  intro k sl c h1 h2
  rw [rejoin_get, reap_getElem?, List.getElem?_map] at h1
  rw [reap_getElem?] at h2
  cases hs : slots[k]? with
  | none => rw [hs] at h1; cases h1
  | some sl0 =>
    cases hc : s[k]? with
    | none => rw [hc] at h2; cases h2
    | some c0 =>
      rw [hs] at h1; rw [hc] at h2
      simp only [Option.map_some, Option.some.injEq, Option.bind_some] at h1 h2
      subst h1; subst h2
      exact (h.2 k sl0 c0 hs hc).reaped k i pid o

theorem matches_rejoin_self {slots : List Slot} : rejoin slots (slots.map Slot.thread) = slots := by
  apply List.ext_getElem?
  intro k
  rw [rejoin_get, List.getElem?_map]
  cases slots[k]? <;> rfl

theorem Corrs.get {slots : List Slot} {s : System} (h : Corrs slots s) {i : Nat} {sl : Slot} (hs : slots[i]? = some sl) :
    ∃ c, s[i]? = some c ∧ Corr sl c := by
  have hi := (List.getElem?_eq_some_iff.1 hs).1
  rw [h.1] at hi
  exact ⟨s[i], List.getElem?_eq_getElem hi, h.2 i sl _ hs (List.getElem?_eq_getElem hi)⟩

theorem Corrs.none {slots : List Slot} {s : System} (h : Corrs slots s) {i : Nat} (hs : slots[i]? = none) : s[i]? = none := by
  rw [List.getElem?_eq_none_iff] at *
  rw [← h.1]; exact hs

/-- An operation of an idle thread. -/
theorem matches_on {slots : List Slot} {s : System} (h : Corrs slots s) (i : Nat) (f : Thread → Thread × Option Outcome)
    (hi : ∀ sl, slots[i]? = some sl → sl.job = none) :
    Corrs (rejoin slots (System.on (slots.map Slot.thread) i f)) (s.on i f) := by
  unfold System.on
  cases hs : slots[i]? with
  | none => 
    rw [h.none hs, List.getElem?_map, hs]
    simp only [Option.map_none, matches_rejoin_self]
    exact h
  | some sl =>
    obtain ⟨c, hc, hm⟩ := h.get hs
    obtain ⟨t, job⟩ := sl
    have := hi _ hs
    simp only at this
    subst this
    have : t = c := hm
    subst this
    rw [hc, List.getElem?_map, hs]
    simp only [Option.map_some]
    by_cases ha : t.alive = true
    · simp only [ha, if_true]
      have hset : (slots.map Slot.thread).set i (f t).1 = (slots.set i ⟨(f t).1, Option.none⟩).map Slot.thread := by
        rw [List.map_set]
      have hre : ∀ s', rejoin slots s' = rejoin (slots.set i ⟨(f t).1, Option.none⟩) s' := by
        intro s'
        apply List.ext_getElem?
        intro k
        rw [rejoin_get, rejoin_get, List.getElem?_set]
        by_cases hk : i = k
        · subst hk
          rw [if_pos rfl, hs, if_pos (List.getElem?_eq_some_iff.1 hs).1]; rfl
        · rw [if_neg hk]
      have hms := matches_set h i ⟨(f t).1, Option.none⟩ (f t).1 rfl
      split
      · rw [hre, hset]; exact matches_reap hms _ _ _
      · rw [hre, hset, matches_rejoin_self]; exact hms
    · rw [if_neg ha, if_neg ha, matches_rejoin_self]
      exact h

theorem idle_job {f : Fine} {i : Nat} (h : f.idle i = true) : ∀ sl, f.slots[i]? = some sl → sl.job = none := by
  intro sl hs
  unfold Fine.idle at h
  rw [hs] at h
  exact Option.isNone_iff_eq_none.1 h

/-- An operation outside `pledge_override`. -/
theorem matches_other (f : Fine) (s : System) (h : Corrs f.slots s) (op : Op) (hm : f.may op = true) :
    Corrs (rejoin f.slots (f.threads.step op)) (s.step op) := by
  cases op with
  | pledge i b env ps v => cases hm
  | call i d hd => exact matches_on h i _ (idle_job hm)
  | setNnp i d hd fault => exact matches_on h i _ (idle_job hm)
  | setSeccomp i d hd fault p => exact matches_on h i _ (idle_job hm)
  | cred i a => exact matches_on h i (fun t => ({ t with admin := a }, none)) (idle_job hm)
  | crash i w =>
    simp only [System.step, System.on, Fine.threads, List.getElem?_map]
    cases hs : f.slots[i]? with
    | none =>
      rw [h.none hs]
      simp only [Option.map_none, matches_rejoin_self]
      exact h
    | some sl =>
      obtain ⟨c, hc, hm⟩ := h.get hs
      rw [hc]
      simp only [Option.map_some]
      have e1 : (f.slots.map Slot.thread).set i sl.thread = f.slots.map Slot.thread := by
        apply List.ext_getElem?
        intro k
        rw [List.getElem?_set]
        split
        · rename_i hk
          subst hk
          rw [List.getElem?_map, hs]
          have := (List.getElem?_eq_some_iff.1 hs).1
          rw [if_pos (by simpa using this)]; rfl
        · rfl
      have e2 : s.set i c = s := by
        apply List.ext_getElem?
        intro k
        rw [List.getElem?_set]
        split
        · rename_i hk
          subst hk
          rw [hc, if_pos (List.getElem?_eq_some_iff.1 hc).1]
        · rfl
      rw [e1, e2, hm.same.2.2.2.2.1, hm.same.1]
      split
      · exact matches_reap h _ _ _
      · rw [matches_rejoin_self]; exact h
  | spawn i d hd pid tid =>
    have hi := idle_job (i := i) hm
    simp only [System.step, Fine.threads]
    cases hs : f.slots[i]? with
    | none =>
      rw [h.none hs, List.getElem?_map, hs]
      simp only [Option.map_none, matches_rejoin_self]
      exact h
    | some sl =>
      obtain ⟨c, hc, hmc⟩ := h.get hs
      have hj := hi sl hs
      obtain ⟨t, job⟩ := sl
      simp only at hj
      subst hj
      have : t = c := hmc
      subst this
      rw [hc, List.getElem?_map, hs]
      simp only [Option.map_some]
      split
      · refine ⟨by simp [rejoin, h.1], ?_⟩
        intro k sl c h1 h2
        rw [rejoin_get] at h1
        by_cases hk : k < s.length
        · rw [List.getElem?_append_left (by simpa [h.1] using hk), List.getElem?_map] at h1
          rw [List.getElem?_append_left hk] at h2
          cases hsk : f.slots[k]? with
          | none => rw [hsk] at h1; cases h1
          | some sl0 =>
            rw [hsk] at h1
            simp only [Option.map_some, Option.bind_some, Option.some.injEq] at h1
            subst h1
            exact h.2 k _ _ hsk h2
        · have hnone : f.slots[k]? = none := List.getElem?_eq_none_iff.2 (by rw [h.1]; omega)
          rw [List.getElem?_append_right (by rw [List.length_map, h.1]; omega), List.length_map, h.1, hnone] at h1
          rw [List.getElem?_append_right (by omega)] at h2
          rw [h2] at h1
          simp only [Option.map_some, Option.bind_none, Option.some.injEq] at h1
          subst h1; rfl
      · exact matches_on h i _ hi

/-- Every choice is, for the indivisible history, either nothing or one operation with the same events. -/
theorem matches_step (f : Fine) (s : System) (h : Corrs f.slots s) (c : Choice) :
    ∃ ops, (f.step c).log = f.log ++ events s ops ∧ Corrs (f.step c).slots (s.run ops) ∧
      (∀ i b env ps v, .pledge i b env ps v ∈ ops →
        ∃ sl j, f.slots[i]? = some sl ∧ sl.job = some j ∧ j.b = b ∧ j.env = env ∧ j.ps = ps ∧ j.v = v) ∧
      (∀ op ∈ ops, (∃ i b env ps v, op = .pledge i b env ps v) ∨ c = .other op) := by
  have hnil : ∀ f' : Fine, f'.log = f.log → Corrs f'.slots s →
      ∃ ops, f'.log = f.log ++ events s ops ∧ Corrs f'.slots (s.run ops) ∧
      (∀ i b env ps v, .pledge i b env ps v ∈ ops →
        ∃ sl j, f.slots[i]? = some sl ∧ sl.job = some j ∧ j.b = b ∧ j.env = env ∧ j.ps = ps ∧ j.v = v) ∧
      (∀ op ∈ ops, (∃ i b env ps v, op = .pledge i b env ps v) ∨ c = .other op) :=
    fun f' h1 h2 => ⟨[], by simp [events, h1], h2, by simp, by simp⟩
  have hset : ∀ (i : Nat) (c : Thread), s[i]? = some c → s.set i c = s := by
    intro i c hc
    apply List.ext_getElem?
    intro k
    rw [List.getElem?_set]
    split
    · rename_i hk
      subst hk
      rw [hc, if_pos (List.getElem?_eq_some_iff.1 hc).1]
    · rfl
  cases c with
  | enter i b env ps v =>
    simp only [Fine.step]
    cases hs : f.slots[i]? with
    | none => exact hnil _ rfl h
    | some sl =>
      obtain ⟨t, job⟩ := sl
      cases job with
      | some j => exact hnil _ rfl h
      | none =>
        simp only
        split
        · refine hnil _ rfl ?_
          obtain ⟨c, hc, hm⟩ := h.get hs
          have : t = c := hm
          subst this
          rw [← hset i t hc]
          exact matches_set h i _ _ ⟨⟨rfl, rfl, rfl, rfl, rfl, id⟩, fun _ => finishes_start b env t ps v⟩
        · exact hnil _ rfl h
  | go i =>
    simp only [Fine.step]
    cases hs : f.slots[i]? with
    | none => exact hnil _ rfl h
    | some sl =>
      obtain ⟨t, job⟩ := sl
      cases job with
      | none => exact hnil _ rfl h
      | some j =>
        simp only
        split
        · rename_i ha
          obtain ⟨c, hc, hm⟩ := h.get hs
          obtain ⟨hsame, hfin⟩ : SameButNnp t c ∧ (t.alive = true → Finishes t j _ _) := hm
          have hfin := hfin ha
          have hca : c.alive = true := hsame.2.2.2.2.1 ▸ ha
          split
          · rename_i t' j' hn
            refine hnil _ rfl ?_
            obtain ⟨g1, g2, g3, g4, g5⟩ := next_inl j t t' j' hn
            rw [← hset i c hc]
            refine matches_set h i _ _ ⟨?_, fun _ => ?_⟩
            · exact ⟨g1.1.trans hsame.1, g1.2.1.trans hsame.2.1, g1.2.2.1.trans hsame.2.2.1, g1.2.2.2.1.trans hsame.2.2.2.1,
                g1.2.2.2.2.1.trans hsame.2.2.2.2.1, fun hh => g1.2.2.2.2.2 (hsame.2.2.2.2.2 hh)⟩
            · rw [g2, g3, g4, g5]
              cases hfin with
              | last hl => rw [hn] at hl; cases hl
              | more hl hrest => rw [hn] at hl; cases hl; exact hrest
          · rename_i t' r hn
            have hres : t' = (pledgeOverride j.b j.env c j.ps j.v).1 ∧ r = (pledgeOverride j.b j.env c j.ps j.v).2 := by
              cases hfin with
              | last hl =>
                rw [hn] at hl
                simp only [Prod.mk.injEq, Sum.inr.injEq] at hl
                exact hl
              | more hl hrest => rw [hn] at hl; cases hl
            refine ⟨[.pledge i j.b j.env j.ps j.v], ?_, ?_, ?_, ?_⟩
            · simp [events, hc, hca, hres.2]
            · have hms := matches_set h i ⟨t', Option.none⟩ t' rfl
              simp only [System.run, List.foldl_cons, List.foldl_nil, System.step, System.on, hc, hca, if_true, ← hres.1, ← hres.2]
              cases hd : r.death with
              | none => exact hms
              | some o =>
                rw [hsame.1]
                exact matches_reap hms _ _ _
            · intro i' b env ps v hp
              simp only [List.mem_singleton, Op.pledge.injEq] at hp
              obtain ⟨rfl, rfl, rfl, rfl, rfl⟩ := hp
              exact ⟨_, j, hs, rfl, rfl, rfl, rfl, rfl⟩
            · intro op hp
              simp only [List.mem_singleton] at hp
              exact .inl ⟨_, _, _, _, _, hp⟩
        · exact hnil _ rfl h
  | other op =>
    simp only [Fine.step]
    split
    · rename_i hm
      refine ⟨[op], ?_, matches_other f s h op hm, ?_, ?_⟩
      · cases op with
        | pledge i b env ps v => cases hm
        | _ => simp [events]
      · intro i b env ps v hp
        simp only [List.mem_singleton] at hp
        subst hp
        cases hm
      · intro o ho
        simp only [List.mem_singleton] at ho
        exact .inr (by rw [ho])
    · exact hnil _ rfl h

theorem events_append (s : System) (a b : List Op) : events s (a ++ b) = events s a ++ events (s.run a) b := by
  induction a generalizing s with
  | nil => rfl
  | cons op a ih =>
    simp only [List.cons_append, events, ih, List.append_assoc]
    rfl

/-- The job of a slot after a step: an old one, or just entered. -/
theorem step_jobs (f : Fine) (c : Choice) (k : Nat) (sl : Slot) (j : Job) (h : (f.step c).slots[k]? = some sl)
    (hj : sl.job = some j) :
    (∃ sl0 j0, f.slots[k]? = some sl0 ∧ sl0.job = some j0 ∧ j.b = j0.b ∧ j.env = j0.env ∧ j.ps = j0.ps ∧ j.v = j0.v) ∨
    c = .enter k j.b j.env j.ps j.v := by
  have hrej : ∀ s', (rejoin f.slots s')[k]? = some sl →
      ∃ sl0 j0, f.slots[k]? = some sl0 ∧ sl0.job = some j0 ∧ j.b = j0.b ∧ j.env = j0.env ∧ j.ps = j0.ps ∧ j.v = j0.v := by
    intro s' h
    rw [rejoin_get] at h
    cases hs : s'[k]? with
    | none => rw [hs] at h; cases h
    | some t =>
      rw [hs] at h
      simp only [Option.map_some, Option.some.injEq] at h
      subst h
      simp only at hj
      cases hk : f.slots[k]? with
      | none => rw [hk] at hj; cases hj
      | some sl0 => rw [hk] at hj; exact ⟨sl0, j, rfl, hj, rfl, rfl, rfl, rfl⟩
  have hold : f.slots[k]? = some sl →
      ∃ sl0 j0, f.slots[k]? = some sl0 ∧ sl0.job = some j0 ∧ j.b = j0.b ∧ j.env = j0.env ∧ j.ps = j0.ps ∧ j.v = j0.v :=
    fun h => ⟨sl, j, h, hj, rfl, rfl, rfl, rfl⟩
  cases c with
  | enter i b env ps v =>
    simp only [Fine.step] at h
    cases hs : f.slots[i]? with
    | none => rw [hs] at h; exact .inl (hold h)
    | some sl1 =>
      obtain ⟨t, job⟩ := sl1
      rw [hs] at h
      cases job with
      | some j1 => exact .inl (hold h)
      | none =>
        simp only at h
        split at h
        · simp only [List.getElem?_set] at h
          split at h
          · rename_i hk
            split at h
            · cases h
              simp only [Option.some.injEq] at hj
              subst hj; subst hk
              exact .inr rfl
            · cases h
          · exact .inl (hold h)
        · exact .inl (hold h)
  | go i =>
    simp only [Fine.step] at h
    cases hs : f.slots[i]? with
    | none => rw [hs] at h; exact .inl (hold h)
    | some sl1 =>
      obtain ⟨t, job⟩ := sl1
      rw [hs] at h
      cases job with
      | none => exact .inl (hold h)
      | some j1 =>
        simp only at h
        split at h
        · split at h
          · rename_i t' j' hn
            simp only [List.getElem?_set] at h
            split at h
            · rename_i hk
              split at h
              · cases h
                simp only [Option.some.injEq] at hj
                subst hj; subst hk
                obtain ⟨_, g2, g3, g4, g5⟩ := next_inl _ _ _ _ hn
                exact .inl ⟨_, j1, hs, rfl, g2, g3, g4, g5⟩
              · cases h
            · exact .inl (hold h)
          · rename_i t' r hn
            have hset : (f.slots.set i ⟨t', none⟩)[k]?.bind Slot.job = some j → f.slots[k]?.bind Slot.job = some j := by
              rw [List.getElem?_set]
              split
              · split
                · intro hh; cases hh
                · intro hh; cases hh
              · exact id
            have hj' : (f.slots.set i ⟨t', none⟩)[k]?.bind Slot.job = some j := by
              simp only at h
              split at h
              · rw [rejoin_get] at h
                cases hx : (reap ((f.slots.set i ⟨t', none⟩).map Slot.thread) i t.pid _)[k]? with
                | none => rw [hx] at h; cases h
                | some u =>
                  rw [hx] at h
                  simp only [Option.map_some, Option.some.injEq] at h
                  subst h
                  exact hj
              · rw [h]; exact hj
            have := hset hj'
            cases hk : f.slots[k]? with
            | none => rw [hk] at this; cases this
            | some sl0 => rw [hk] at this; exact .inl ⟨sl0, j, rfl, this, rfl, rfl, rfl, rfl⟩
        · exact .inl (hold h)
  | other op =>
    simp only [Fine.step] at h
    split at h
    · exact .inl (hrej _ h)
    · exact .inl (hold h)

/-- The simulation along a schedule. `J`: what holds of all calls in progress. -/
theorem matches_run (J : Nat → Build → Env → List Promise → SeccompReturn → Prop) (cs : List Choice) (f : Fine) (s : System)
    (h : Corrs f.slots s)
    (hJ : ∀ (k : Nat) sl j, f.slots[k]? = some sl → sl.job = some j → J k j.b j.env j.ps j.v)
    (hc : ∀ i b env ps v, Choice.enter i b env ps v ∈ cs → J i b env ps v) :
    ∃ ops, (f.run cs).log = f.log ++ events s ops ∧ Corrs (f.run cs).slots (s.run ops) ∧
      (∀ i b env ps v, .pledge i b env ps v ∈ ops → J i b env ps v) ∧
      (∀ op ∈ ops, (∃ i b env ps v, op = .pledge i b env ps v) ∨ .other op ∈ cs) := by
  induction cs generalizing f s with
  | nil => exact ⟨[], by simp [Fine.run, events], h, by simp, by simp⟩
  | cons c cs ih =>
    obtain ⟨ops1, a1, a2, a3, a4⟩ := matches_step f s h c
    obtain ⟨ops2, b1, b2, b3, b4⟩ := ih (f.step c) (s.run ops1) a2 (by
      intro k sl j h1 h2
      rcases step_jobs f c k sl j h1 h2 with ⟨sl0, j0, g1, g2, g3, g4, g5, g6⟩ | hh
      · rw [g3, g4, g5, g6]; exact hJ k sl0 j0 g1 g2
      · exact hc _ _ _ _ _ (by rw [← hh]; simp)) (fun i b env ps v hm => hc i b env ps v (by simp [hm]))
    refine ⟨ops1 ++ ops2, ?_, ?_, ?_, ?_⟩
    · have : (f.run (c :: cs)).log = ((f.step c).run cs).log := rfl
      rw [this, b1, a1, events_append, List.append_assoc]
    · have : f.run (c :: cs) = (f.step c).run cs := rfl
      rw [this]
      have : s.run (ops1 ++ ops2) = (s.run ops1).run ops2 := by simp [System.run, List.foldl_append]
      rw [this]; exact b2
    · intro i b env ps v hm
      rcases List.mem_append.1 hm with hm | hm
      · obtain ⟨sl, j, h1, h2, rfl, rfl, rfl, rfl⟩ := a3 i b env ps v hm
        exact hJ i sl j h1 h2
      · exact b3 i b env ps v hm
    · intro op hm
      rcases List.mem_append.1 hm with hm | hm
      · rcases a4 op hm with hh | hh
        · exact .inl hh
        · exact .inr (by simp [hh])
      · rcases b4 op hm with hh | hh
        · exact .inl hh
        · exact .inr (by simp [hh])

/-! ## A thread inside the call and the rest of the world -/

theorem reaped_cases (k i : Nat) (pid : BitVec 32) (o : Outcome) (t : Thread) :
    ∃ a, reaped k i pid o t = { t with alive := a } ∧ (a = true → t.alive = true) := by
  unfold reaped
  split
  · exact ⟨false, rfl, by simp⟩
  · exact ⟨t.alive, rfl, id⟩

/-- What thread `i` does leaves another thread as it is, or dead. -/
theorem on_other (s : System) (i : Nat) (f : Thread → Thread × Option Outcome) (k : Nat) (hk : i ≠ k) (t : Thread)
    (h : s[k]? = some t) : ∃ a, (s.on i f)[k]? = some { t with alive := a } ∧ (a = true → t.alive = true) := by
  have hid : ∃ a, s[k]? = some { t with alive := a } ∧ (a = true → t.alive = true) := ⟨t.alive, h, id⟩
  unfold System.on
  split
  · split
    · split
      · rename_i o ho
        rw [reap_getElem?, List.getElem?_set_ne hk, h]
        obtain ⟨a, h1, h2⟩ := reaped_cases k i _ o t
        exact ⟨a, by rw [Option.map_some, h1], h2⟩
      · rw [List.getElem?_set_ne hk]; exact hid
    · exact hid
  · exact hid

/-- No choice but its own next step changes a thread inside `pledge_override` or its progress, except that it may die. -/
theorem step_busy (f : Fine) (c : Choice) (k : Nat) (t : Thread) (j : Job) (h : f.slots[k]? = some ⟨t, some j⟩) (hc : c ≠ .go k) :
    ∃ a, (f.step c).slots[k]? = some ⟨{ t with alive := a }, some j⟩ ∧ (a = true → t.alive = true) := by
  have hid : ∃ a, f.slots[k]? = some ⟨{ t with alive := a }, some j⟩ ∧ (a = true → t.alive = true) := ⟨t.alive, h, id⟩
  have hrej : ∀ s' : System, (∃ a, s'[k]? = some { t with alive := a } ∧ (a = true → t.alive = true)) →
      ∃ a, (rejoin f.slots s')[k]? = some ⟨{ t with alive := a }, some j⟩ ∧ (a = true → t.alive = true) := by
    rintro s' ⟨a, h1, h2⟩
    exact ⟨a, by rw [rejoin_get, h1, h]; rfl, h2⟩
  cases c with
  | enter i b env ps v =>
    simp only [Fine.step]
    cases hs : f.slots[i]? with
    | none => exact hid
    | some sl1 =>
      obtain ⟨u, job⟩ := sl1
      cases job with
      | some j1 => exact hid
      | none =>
        simp only
        split
        · have hik : i ≠ k := by
            intro e; subst e; rw [h] at hs; simp at hs
          simp only [List.getElem?_set_ne hik]
          exact hid
        · exact hid
  | go i =>
    have hik : i ≠ k := fun e => hc (by rw [e])
    simp only [Fine.step]
    cases hs : f.slots[i]? with
    | none => exact hid
    | some sl1 =>
      obtain ⟨u, job⟩ := sl1
      cases job with
      | none => exact hid
      | some j1 =>
        simp only
        split
        · split
          · simp only [List.getElem?_set_ne hik]; exact hid
          · rename_i t' r hn
            simp only
            split
            · rename_i o ho
              rw [rejoin_get, reap_getElem?, List.getElem?_map, List.getElem?_set_ne hik, h]
              obtain ⟨a, h1, h2⟩ := reaped_cases k i u.pid o t
              exact ⟨a, by simp [h1], h2⟩
            · rw [List.getElem?_set_ne hik]; exact hid
        · exact hid
  | other op =>
    simp only [Fine.step]
    split
    · rename_i hm
      have ht : f.threads[k]? = some t := by rw [Fine.threads, List.getElem?_map, h]; rfl
      have hidle : ∀ i, f.idle i = true → i ≠ k := by
        intro i hi e
        subst e
        simp [Fine.idle, h] at hi
      refine hrej _ ?_
      cases op with
      | pledge i b env ps v => cases hm
      | call i d hd => exact on_other _ i _ k (hidle i hm) t ht
      | setNnp i d hd fault => exact on_other _ i _ k (hidle i hm) t ht
      | setSeccomp i d hd fault p => exact on_other _ i _ k (hidle i hm) t ht
      | cred i a => exact on_other _ i (fun t => ({ t with admin := a }, none)) k (hidle i hm) t ht
      | crash i w =>
        by_cases hik : i = k
        · subst hik
          simp only [System.step, System.on, ht]
          split
          · rw [reap_getElem?, List.getElem?_set_self (List.getElem?_eq_some_iff.1 ht).1]
            obtain ⟨a, h1, h2⟩ := reaped_cases i i t.pid (if w then .killProcess else .killThread) t
            exact ⟨a, by rw [Option.map_some, h1], h2⟩
          · exact ⟨t.alive, ht, id⟩
        · exact on_other _ i (fun t => (t, some (if w then .killProcess else .killThread))) k hik t ht
      | spawn i d hd pid tid =>
        simp only [System.step]
        split
        · split
          · rw [List.getElem?_append_left (List.getElem?_eq_some_iff.1 ht).1]
            exact ⟨t.alive, ht, id⟩
          · exact on_other _ i _ k (hidle i hm) t ht
        · exact ⟨t.alive, ht, id⟩
    · exact hid

/-- Steps left at most. -/
def Stage.left : Stage → Nat
  | .start => 4
  | .pid _ => 3
  | .ids _ => 2
  | .armed _ => 1

theorem next_left (j : Job) (t t' : Thread) (j' : Job) (h : j.next t = (t', .inl j')) : j'.stage.left < j.stage.left := by
  unfold Job.next at h
  split at h
  · rename_i hs
    rw [hs]
    split at h
    · split at h <;> cases h; simp [Stage.left]
    · cases h; simp [Stage.left]
  · rename_i hs
    rw [hs]
    split at h <;> cases h; simp [Stage.left]
  · rename_i hs
    rw [hs]
    split at h
    · cases h
    · cases h
    · dsimp only at h
      split at h <;> cases h
      simp [Stage.left]
  · dsimp only at h
    split at h <;> cases h

/-- Its own next step: out of the call, or closer to the end. -/
theorem step_go (f : Fine) (k : Nat) (t : Thread) (j : Job) (h : f.slots[k]? = some ⟨t, some j⟩) (ha : t.alive = true) :
    ∃ sl, (f.step (.go k)).slots[k]? = some sl ∧
      (sl.job = none ∨ ∃ j', sl.job = some j' ∧ j'.stage.left < j.stage.left ∧ SameButNnp sl.thread t) := by
  simp only [Fine.step, h, ha, if_true]
  have hk := (List.getElem?_eq_some_iff.1 h).1
  split
  · rename_i t' j' hn
    exact ⟨⟨t', some j'⟩, by simp only [List.getElem?_set_self hk], .inr ⟨j', rfl, next_left _ _ _ _ hn, (next_inl _ _ _ _ hn).1⟩⟩
  · rename_i t' r hn
    simp only
    split
    · rw [rejoin_get, reap_getElem?, List.getElem?_map, List.getElem?_set_self hk]
      exact ⟨_, rfl, .inl rfl⟩
    · exact ⟨_, by rw [List.getElem?_set_self hk], .inl rfl⟩

theorem finishes_soon (cs : List Choice) (f : Fine) (k : Nat) (t : Thread) (j : Job) (h : f.slots[k]? = some ⟨t, some j⟩)
    (hn : j.stage.left ≤ steps k cs) :
    ∃ pre suf, cs = pre ++ suf ∧ ∃ sl, (f.run pre).slots[k]? = some sl ∧ (sl.job = none ∨ sl.thread.alive = false) := by
  by_cases ha : t.alive = true
  · induction cs generalizing f t j with
    | nil =>
      have : 0 < j.stage.left := by cases j.stage <;> simp [Stage.left]
      simp [steps] at hn
      omega
    | cons c cs ih =>
      have lift : (∃ pre suf, cs = pre ++ suf ∧ ∃ sl, ((f.step c).run pre).slots[k]? = some sl ∧
          (sl.job = none ∨ sl.thread.alive = false)) → ∃ pre suf, c :: cs = pre ++ suf ∧ ∃ sl, (f.run pre).slots[k]? = some sl ∧
          (sl.job = none ∨ sl.thread.alive = false) := by
        rintro ⟨pre, suf, h1, h2⟩
        exact ⟨c :: pre, suf, by rw [h1]; rfl, h2⟩
      by_cases hc : c = .go k
      · subst hc
        obtain ⟨sl, h1, h2⟩ := step_go f k t j h ha
        rcases h2 with h2 | ⟨j', h2, h3, h4⟩
        · exact lift ⟨[], cs, rfl, sl, h1, .inl h2⟩
        · obtain ⟨t', job⟩ := sl
          simp only at h2 h4
          subst h2
          refine lift (ih (f.step (.go k)) t' j' h1 ?_ (h4.2.2.2.2.1.trans ha))
          simp only [steps, if_true] at hn
          omega
      · obtain ⟨a, h1, h2⟩ := step_busy f c k t j h hc
        cases a with
        | false => exact lift ⟨[], cs, rfl, _, h1, .inr rfl⟩
        | true =>
          refine lift (ih (f.step c) _ j h1 ?_ rfl)
          cases c with
          | go i =>
            have : i ≠ k := fun e => hc (by rw [e])
            simpa [steps, this] using hn
          | enter i b env ps v => exact hn
          | other op => exact hn
  · exact ⟨[], cs, rfl, _, h, .inr (by simpa using ha)⟩

end Pledge
