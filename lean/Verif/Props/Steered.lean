import Verif.Spec.Steered
import Verif.Proofs.Alone
import Verif.Props.TracedPledge
import Verif.Props.Signals

/-!
# C110: pledging under a tracer that puts other calls in the place of the library's
-/
set_option autoImplicit false

namespace Props
open Pledge Bpfvm Spec Kernel

/-! ## what is executed -/

theorem executes_ge {t : Thread} {d e : SeccompData} {o : Order} (he : enterTraced t d o = .executes e) :
    TR ≤ actionOnly (runFilters t.filters e) := by
  have hexec : ∀ x, (enter t x).ending x = .executes e → x = e ∧ TR ≤ actionOnly (runFilters t.filters x) := by
    intro x hx
    unfold enter at hx
    cases ho : outcome (runFilters t.filters x) <;> rw [ho] at hx <;> simp only [Outcome.ending, Ending.executes.injEq, reduceCtorEq] at hx
    refine ⟨hx, ?_⟩
    rcases (outcome_executed _).1 ho with h | h <;> rw [h] <;> decide
  unfold enterTraced at he
  split at he
  · cases o with
    | skip v => cases he
    | go x =>
      simp only at he
      split at he
      · rename_i h
        cases he
        rw [(wantsTrace_iff _).1 h]
        exact Int.le_refl _
      · obtain ⟨rfl, h⟩ := hexec x he
        exact h
  · obtain ⟨rfl, h⟩ := hexec d he
    exact h

/-- A filter that is still there has let the executed call pass. -/
theorem executes_firm {t u : Thread} {l : List Past} (hl : HasPledged t l) (hg : Grown t u) {d e : SeccompData} {o : Order}
    (he : enterTraced u d o = .executes e) (p : Past) (hp : p ∈ l) (hf : Firm p.v) : Allows p.ids p.ps e := by
  have h1 := executes_ge he
  have h2 : actionOnly (runFilters u.filters e) ≤ actionOnly (runFilters t.filters e) := by
    obtain ⟨l', hl'⟩ := hg.1
    rw [runFilters_eq, runFilters_eq, ← hl', List.map_append]
    rcases combine_mem 0x7fff0000#32 (t.filters.map fun f => cur f e) with h | h
    · rw [h]; exact (combine_le _ _).1
    · exact (combine_le _ _).2 _ (List.mem_append_right _ h)
  have := (stack_ge hl e TR (by decide)).1 (by omega) p hp
  rcases verdict_three p.ids p.ps p.v.toU32 e with ⟨h, _⟩ | ⟨_, h⟩ | ⟨_, h⟩
  · exact h
  · rw [h] at this
    have := action_firm hf
    omega
  · rw [h] at this
    exact absurd this (by decide)

theorem executes_which {t : Thread} {d d' e : SeccompData} (h : enterTraced t d (.go d') = .executes e) :
    e = d' ∨ wantsTrace (runFilters t.filters d) = false ∧ e = d := by
  have h2 : ∀ d, (enter t d).ending d = .executes e → e = d := by
    intro d h; cases ho : enter t d <;> rw [ho] at h <;> cases h; rfl
  unfold enterTraced at h
  simp only at h
  split at h
  · split at h
    · cases h; exact .inl rfl
    · exact .inl (h2 _ h)
  · rename_i hw; exact .inr ⟨by simpa using hw, h2 _ h⟩

theorem fate_own {s : Steer} {t : Thread} {d : SeccompData} (h : fate s t d = .own) : ∃ o, enterTraced t d o = .executes d := by
  refine ⟨.go d, ?_⟩
  unfold fate at h
  split at h
  · cases h
  · split at h <;> cases h
  · split at h
    · rename_i e he
      rw [he]
      rcases executes_which he with h | h
      · rw [h]
      · rw [h.2]
    all_goals cases h

theorem fate_other {s : Steer} {t : Thread} {d e : SeccompData} {body : Thread → Thread × CallRes} (h : fate s t d = .other e body) :
    (∃ o, enterTraced t d o = .executes e) ∧ ∃ m, s = .swap e body ∧ told t d = some m := by
  unfold fate at h
  split at h
  · cases h
  · rename_i m d' body' hm
    split at h
    · rename_i e' he
      cases h
      rcases executes_which he with h | h
      · subst h; exact ⟨⟨_, he⟩, _, rfl, hm⟩
      · rw [told_some hm] at h; cases h.1
    all_goals cases h
  · split at h <;> cases h

theorem syscallSteered_facts {s : Steer} (hs : Lawful s) (h : Option Int) (t : Thread) (d : SeccompData) (body : Thread → Thread × Int)
    (hb : ∀ t, Grown t (body t).1) :
    Grown t (syscallSteered h s t d body).1 ∧ ∀ e ∈ (syscallSteered h s t d body).2.2, ∃ x o, enterTraced t x o = .executes e := by
  unfold syscallSteered
  cases hf : fate s t d with
  | own =>
    refine ⟨hb t, fun e he => ?_⟩
    rw [List.mem_singleton.1 he]
    exact ⟨d, fate_own hf⟩
  | other e body' =>
    obtain ⟨h1, _, rfl, _⟩ := fate_other hf
    refine ⟨hs t, fun e' he => ?_⟩
    rw [List.mem_singleton.1 he]
    exact ⟨d, h1⟩
  | skipped v => exact ⟨.refl t, by simp⟩
  | refused v => exact ⟨.refl t, by simp⟩
  | trap => cases h <;> exact ⟨.refl t, by simp⟩
  | killed o => exact ⟨.refl t, by simp⟩

theorem askSteered_facts {s : Steer} (hs : Lawful s) (h : Bool) (fail : BitVec 32) (t : Thread) (d : SeccompData) (real : BitVec 32) :
    Grown t (askSteered h fail s t d real).1 ∧ ∀ e ∈ (askSteered h fail s t d real).2.2, ∃ x o, enterTraced t x o = .executes e := by
  unfold askSteered
  cases hf : fate s t d with
  | own =>
    refine ⟨.refl t, fun e he => ?_⟩
    rw [List.mem_singleton.1 he]
    exact ⟨d, fate_own hf⟩
  | other e body' =>
    obtain ⟨h1, _, rfl, _⟩ := fate_other hf
    have hs' : Grown t (body' t).1 := hs t
    simp only
    rcases hbt : body' t with ⟨t', (v | o)⟩ <;> rw [hbt] at hs' <;> refine ⟨hs', fun e' he => ?_⟩ <;> rw [List.mem_singleton.1 he] <;> exact ⟨d, h1⟩
  | skipped v => exact ⟨.refl t, by simp⟩
  | refused v => exact ⟨.refl t, by simp⟩
  | trap => exact ⟨.refl t, by simp⟩
  | killed o => exact ⟨.refl t, by simp⟩

theorem fragSteered_facts {s : Steer} (hs : Lawful s) (b : Build) (h : Bool) (q : Query) (t : Thread) (f : Filtered) :
    Grown t (fragSteered b h q s t f).1 ∧ (∀ e ∈ (fragSteered b h q s t f).2.2, ∃ x o, enterTraced t x o = .executes e) ∧
    ((∃ o, (fragSteered b h q s t f).2.1 = .error o) ∨ ∃ ids, (fragSteered b h q s t f).2.1 = .ok (.ok (frag ids f))) := by
  by_cases hk : f = .KillSelf
  · subst hk
    have hf := askSteered_facts hs h q.fail t q.getpid t.pid
    simp only [fragSteered, filterToBpf_eq]
    rcases hask : askSteered h q.fail s t q.getpid t.pid with ⟨t', (o | x), log⟩ <;> rw [hask] at hf
    · exact ⟨hf.1, hf.2, .inl ⟨_, rfl⟩⟩
    · exact ⟨hf.1, hf.2, .inr ⟨_, rfl⟩⟩
  · by_cases ht : f = .TkillSelf
    · subst ht
      have hf := askSteered_facts hs h q.fail t q.gettid t.tid
      simp only [fragSteered, filterToBpf_eq]
      rcases hask : askSteered h q.fail s t q.gettid t.tid with ⟨t', (o | x), log⟩ <;> rw [hask] at hf
      · exact ⟨hf.1, hf.2, .inl ⟨_, rfl⟩⟩
      · exact ⟨hf.1, hf.2, .inr ⟨_, rfl⟩⟩
    · have : fragSteered b h q s t f = (t, .ok (.ok (frag ⟨0, 0⟩ f)), []) := by
        cases f <;> first | exact absurd rfl hk | exact absurd rfl ht | (simp only [fragSteered, filterToBpf_eq]; done)
      rw [this]
      exact ⟨.refl t, by simp, .inr ⟨_, rfl⟩⟩

theorem next_facts {s : Steer} (hs : Lawful s) (a : Act) (t : Thread) :
    Grown t (a.nextSteered s t).1 ∧ ∀ e ∈ (a.nextSteered s t).2.2, ∃ x o, enterTraced t x o = .executes e := by
  unfold Act.nextSteered
  cases hp : a.phase with
  | start => simp only [mapM_filters]; exact ⟨.refl t, by simp⟩
  | making k todo codes =>
    cases todo with
    | cons f todo =>
      have h1 := fragSteered_facts hs a.b a.env.handler (a.q k) t f
      simp only
      rcases hfr : fragSteered a.b a.env.handler (a.q k) s t f with ⟨t', (o | (code | e | _)), log⟩ <;> rw [hfr] at h1 <;> exact ⟨h1.1, h1.2.1⟩
    | nil =>
      simp only [bpfHeader_eq, bpfFooter_eq]
      have h1 := syscallSteered_facts hs (a.env.onTrap a.env.trapRet.1) t (recNnp a.env) (setNnp a.env.nnpFault) (setNnp_grown _)
      split <;> exact h1
  | armed prog =>
    have h1 := syscallSteered_facts hs (a.env.onTrap a.env.trapRet.2) t (recSeccomp a.env)
      (setSeccomp a.env.seccompFault (prog.take (prog.length % 2 ^ 16))) (setSeccomp_grown _ _)
    simp only
    split <;> exact h1

theorem follow_facts {ss : List Steer} (hs : ∀ s ∈ ss, Lawful s) (a : Act) (t : Thread) :
    Grown t (a.follow t ss).1 ∧ ∀ e ∈ (a.follow t ss).2.2, ∃ u x o, Grown t u ∧ enterTraced u x o = .executes e := by
  induction ss generalizing a t with
  | nil => exact ⟨.refl t, by simp [Act.follow]⟩
  | cons s ss ih =>
    have h1 := next_facts (hs s (by simp)) a t
    unfold Act.follow
    rcases hn : a.nextSteered s t with ⟨t', (a' | r), log⟩ <;> rw [hn] at h1
    · have h2 := ih (fun s hs' => hs s (by simp [hs'])) a' t'
      refine ⟨h1.1.trans h2.1, fun e he => ?_⟩
      rcases List.mem_append.1 he with he | he
      · obtain ⟨x, o, h⟩ := h1.2 e he
        exact ⟨t, x, o, .refl t, h⟩
      · obtain ⟨u, x, o, hg, h⟩ := h2.2 e he
        exact ⟨u, x, o, h1.1.trans hg, h⟩
    · refine ⟨h1.1, fun e he => ?_⟩
      obtain ⟨x, o, h⟩ := h1.2 e he
      exact ⟨t, x, o, .refl t, h⟩

/-- C110: whatever a tracer passes, skips or puts in the place of the library's calls, no earlier filter goes away, nor does
no_new_privs. -/
theorem C110_only_adds (b : Build) (env : Env) (q : Nat → Query) (ss : List Steer) (hs : ∀ s ∈ ss, Lawful s) (t : Thread)
    (ps : List Promise) (v : SeccompReturn) :
    t.filters <:+ (pledgeSteered b env q ss t ps v).1.filters ∧ (t.nnp = true → (pledgeSteered b env q ss t ps v).1.nnp = true) :=
  (follow_facts hs _ t).1

/-- C110: every system call that is executed during the call, be it the library's or the tracer's, is permitted by every earlier pledge
whose violation is KillProcess, KillThread, Trap or Errno. -/
theorem C110_firm (b : Build) (env : Env) (q : Nat → Query) (ss : List Steer) (hs : ∀ s ∈ ss, Lawful s) (t : Thread) (l : List Past)
    (hl : HasPledged t l) (ps : List Promise) (v : SeccompReturn) (e : SeccompData) (he : e ∈ (pledgeSteered b env q ss t ps v).2.2)
    (p : Past) (hp : p ∈ l) (hf : Firm p.v) : Allows p.ids p.ps e := by
  obtain ⟨u, x, o, hg, h⟩ := (follow_facts hs _ t).2 e he
  exact executes_firm hl hg h p hp hf

theorem steered_left (a a' : Act) (s : Steer) (t t' : Thread) (log : List SeccompData) (h : a.nextSteered s t = (t', .inl a', log)) :
    left a' < left a := by
  unfold Act.nextSteered at h
  cases hp : a.phase with
  | start =>
    simp only [hp, mapM_filters, Prod.mk.injEq, Sum.inl.injEq] at h
    rw [← h.2.1]
    simp only [left, hp, allFilters]
    omega
  | making k rest codes =>
    rw [hp] at h
    cases rest with
    | cons f rest =>
      simp only at h
      split at h <;> simp at h
      rw [← h.2.1]
      simp [left, hp]
    | nil =>
      simp only [bpfHeader_eq, bpfFooter_eq] at h
      split at h <;> simp at h
      rw [← h.2.1]
      simp [left, hp]
  | armed prog =>
    simp only [hp] at h
    split at h <;> simp at h

/-- C110, termination: a call takes at most three steps more than its promises have filters, whatever the tracer does. -/
theorem C110_ends (b : Build) (env : Env) (q : Nat → Query) (ss : List Steer) (t : Thread) (ps : List Promise) (v : SeccompReturn)
    (hn : ((.Default :: ps).map filtersOf).flatten.length + 3 ≤ ss.length) :
    ∃ t' r log, pledgeSteered b env q ss t ps v = (t', .inr r, log) := by
  have key : ∀ (ss : List Steer) (a : Act) (t : Thread), left a ≤ ss.length → ∃ t' r log, a.follow t ss = (t', .inr r, log) := by
    intro ss
    induction ss with
    | nil =>
      intro a t h
      have : 0 < left a := by unfold left; split <;> omega
      simp only [List.length_nil] at h
      omega
    | cons s ss ih =>
      intro a t h
      unfold Act.follow
      rcases hn : a.nextSteered s t with ⟨t', (a' | r), log⟩
      · have := steered_left a a' s t t' log hn
        obtain ⟨t2, r, log2, h2⟩ := ih a' t' (by simp only [List.length_cons] at h; omega)
        simp only [h2]
        exact ⟨_, _, _, rfl⟩
      · exact ⟨_, _, _, rfl⟩
  exact key ss _ t hn

/-! ## if the tracer is not asked -/

theorem fate_unasked {s : Steer} {t : Thread} {d : SeccompData} (h : told t d = none) :
    fate s t d = match enter t d with
      | .executed => .own
      | .errno n => .refused (-(n : Int))
      | .trap => .trap
      | .killThread => .killed .killThread
      | .killProcess => .killed .killProcess := by
  unfold fate
  rw [h]
  simp only [C105_unasked t d _ h]
  cases enter t d <;> rfl

theorem syscallSteered_unasked (h : Option Int) (s : Steer) (t : Thread) (d : SeccompData) (body : Thread → Thread × Int)
    (hu : told t d = none) : ((syscallSteered h s t d body).1, (syscallSteered h s t d body).2.1) = syscall h t d body := by
  unfold syscallSteered syscall
  rw [fate_unasked hu]
  cases enter t d <;> cases h <;> rfl

theorem fragSteered_unasked (b : Build) (h : Bool) (q : Query) (s : Steer) (t : Thread) (f : Filtered)
    (h1 : told t q.getpid = none) (h2 : told t q.gettid = none) :
    ((fragSteered b h q s t f).1, (fragSteered b h q s t f).2.1) = (t, (fragBy b h t q f).2) := by
  by_cases hk : f = .KillSelf
  · subst hk
    simp only [fragSteered, fragBy, askSteered, fate_unasked h1]
    cases enter t q.getpid <;> cases h <;> rfl
  · by_cases ht : f = .TkillSelf
    · subst ht
      simp only [fragSteered, fragBy, askSteered, fate_unasked h2]
      cases enter t q.gettid <;> cases h <;> rfl
    · cases f <;> first | exact absurd rfl hk | exact absurd rfl ht | rfl

/-- The rest of a call, from the fragments on. -/
theorem follow_rest (b : Build) (env : Env) (q : Nat → Query) (ps : List Promise) (v : SeccompReturn) (t : Thread)
    (hq : ∀ k, told t (q k).getpid = none ∧ told t (q k).gettid = none) (h1 : told t (recNnp env) = none)
    (h2 : told t (recSeccomp env) = none) (k : Nat) (fs : List Filtered) (codes : List (List SockFilter)) (ss : List Steer)
    (hn : fs.length + 2 ≤ ss.length) :
    let r := (Act.mk b env q ps v (.making k fs codes)).follow t ss
    (r.1, r.2.1) = ((restOf b env q v t k fs codes).1, .inr (restOf b env q v t k fs codes).2) := by
  induction fs generalizing k codes ss with
  | nil =>
    match ss, hn with
    | s1 :: s2 :: ss, _ =>
      have hf := syscallSteered_unasked (env.onTrap env.trapRet.1) s1 t (recNnp env) (setNnp env.nnpFault) h1
      rcases hr1 : syscallSteered (env.onTrap env.trapRet.1) s1 t (recNnp env) (setNnp env.nnpFault) with ⟨t1, x1, log1⟩
      rw [hr1] at hf
      have ht1 : t1.filters = t.filters := by
        have := syscall_nnp_filters (env.onTrap env.trapRet.1) t (recNnp env) env.nnpFault
        rw [← hf] at this
        exact this
      simp only [Act.follow, Act.nextSteered, bpfHeader_eq, bpfFooter_eq, hr1, restOf, fragsBy, List.append_nil, lastSteps]
      rw [← hf]
      simp only
      cases hc : checkRet env.errno.1 x1 with
      | some e => rfl
      | none =>
        simp only
        generalize hprog : ([_] ++ codes ++ [_]).flatten = prog
        have hg := syscallSteered_unasked (env.onTrap env.trapRet.2) s2 t1 (recSeccomp env)
          (setSeccomp env.seccompFault (prog.take (prog.length % 2 ^ 16))) (by rw [told_filters ht1, h2])
        rcases hr2 : syscallSteered (env.onTrap env.trapRet.2) s2 t1 (recSeccomp env)
          (setSeccomp env.seccompFault (prog.take (prog.length % 2 ^ 16))) with ⟨t2, x2, log2⟩
        rw [hr2] at hg
        rw [← hg]
        simp only
        cases hc2 : checkRet env.errno.2 x2 <;> rfl
  | cons f fs ih =>
    match ss, hn with
    | s :: ss, hn =>
      have hf := fragSteered_unasked b env.handler (q k) s t f (hq k).1 (hq k).2
      rcases hr : fragSteered b env.handler (q k) s t f with ⟨t', x, log⟩
      rw [hr] at hf
      simp only [Prod.mk.injEq] at hf
      obtain ⟨rfl, hf⟩ := hf
      rcases hb : fragBy b env.handler t' (q k) f with ⟨calls, y⟩
      rw [hb] at hf
      simp only at hf
      subst hf
      rcases x with o | (code | e | _)
      · simp only [Act.follow, Act.nextSteered, hr, restOf, fragsBy, hb]
      · have := ih (k + 1) (codes ++ [code]) ss (by simp at hn; omega)
        simp only [Act.follow, Act.nextSteered, hr]
        rw [show restOf b env q v t' k (f :: fs) codes = restOf b env q v t' (k + 1) fs (codes ++ [code]) by
          simp only [restOf, fragsBy, hb]
          rcases fragsBy b env.handler t' q (k + 1) fs with ⟨calls', (o | (l | e | _))⟩ <;> simp]
        exact this
      · simp only [Act.follow, Act.nextSteered, hr, restOf, fragsBy, hb]
      · simp only [Act.follow, Act.nextSteered, hr, restOf, fragsBy, hb]

/-- The record of a query is the record `Model/Pledge` has in some environment. -/
theorem query_rec (env : Env) (q : Query) : ∃ env' : Env, q.getpid = recGetpid env' ∧ q.gettid = recGettid env' :=
  ⟨{ env with ip := fun _ => q.ip, junk := fun _ => q.junk }, rfl, rfl⟩

/-- C110: a tracer that the earlier pledges do not let ask about `prctl` has no say in any call of the library, whatever it would do. -/
theorem C110_unasked (b : Build) (env : Env) (q : Nat → Query) (ss : List Steer) (t : Thread) (l : List Past) (hl : HasPledged t l)
    (ps : List Promise) (v : SeccompReturn) (hu : told t (recNnp env) = none)
    (hn : ((.Default :: ps).map filtersOf).flatten.length + 3 ≤ ss.length) :
    (pledgeSteered b env q ss t ps v).1 = (pledgeOverride b env t ps v).1 ∧
    (pledgeSteered b env q ss t ps v).2.1 = .inr (pledgeOverride b env t ps v).2 := by
  match ss, hn with
  | s :: ss, hn =>
    have hq : ∀ k, told t (q k).getpid = none ∧ told t (q k).gettid = none := by
      intro k
      obtain ⟨env', h1, h2⟩ := query_rec env (q k)
      rw [h1, h2, told_own hl env' env _ (.inl rfl), told_own hl env' env _ (.inr (.inl rfl))]
      exact ⟨hu, hu⟩
    have h2 : told t (recSeccomp env) = none := by rw [told_own hl env env _ (.inr (.inr (.inr rfl))), hu]
    have h := follow_rest b env q ps v t hq hu h2 0 (allFilters ps) [] ss (by
      simp only [List.length_cons] at hn; unfold allFilters; omega)
    rw [← C78_as_if_asked_once b env q t l hl ps v, calls_rest]
    simp only [Prod.mk.injEq] at h
    simp only [pledgeSteered, Act.follow, Act.nextSteered, mapM_filters]
    exact h

/-! ## what the steps do -/

theorem pieces_eq (ps : List Promise) : pieces ps = allFilters ps := by
  have h : ∀ p, (lookupPromise p).getD [] = filtersOf p := by intro p; cases p <;> decide +kernel
  unfold pieces allFilters
  rw [List.map_congr_left (fun p _ => h p)]

theorem asked_iff {t : Thread} {d : SeccompData} : Asked t d ↔ wantsTrace (runFilters t.filters d) = true := by
  unfold Asked told
  by_cases h : wantsTrace (runFilters t.filters d) = true <;> simp [h]

/-- What a filter that stops a call with `o` makes of it. -/
def stopFate : Outcome → Fate
  | .executed => .own
  | .errno n => .refused (-(n : Int))
  | .trap => .trap
  | .killThread => .killed .killThread
  | .killProcess => .killed .killProcess

/-- The filters stop the call `x`: the library's call `d`, or what the tracer puts in its place. -/
def StopsAt (s : Steer) (t : Thread) (d x : SeccompData) : Prop :=
  (¬ Asked t d ∧ x = d ∨ Asked t d ∧ (∃ body, s = .swap x body) ∧ ¬ TakesPlace t x) ∧ enter t x ≠ .executed

theorem fate_cases (s : Steer) (t : Thread) (d : SeccompData) :
    (fate s t d = .own ∧ LetPass s t d) ∨
    (∃ e body, s = .swap e body ∧ Asked t d ∧ TakesPlace t e ∧ fate s t d = .other e body) ∨
    (∃ v, s = .skip v ∧ Asked t d ∧ fate s t d = .skipped v) ∨
    (∃ x, StopsAt s t d x ∧ fate s t d = stopFate (enter t x)) := by
  by_cases ha : Asked t d
  · have hw := asked_iff.1 ha
    obtain ⟨m, hm⟩ := ha
    have ha : Asked t d := ⟨m, hm⟩
    cases s with
    | pass =>
      refine .inl ⟨?_, .inr ⟨ha, rfl⟩⟩
      unfold fate
      rw [hm]
      simp only [enterTraced, hw, if_true]
    | skip v => exact .inr (.inr (.inl ⟨v, rfl, ha, by unfold fate; rw [hm]⟩))
    | swap e body =>
      by_cases hr : TakesPlace t e
      · refine .inr (.inl ⟨e, body, rfl, ha, hr, ?_⟩)
        unfold fate
        rw [hm]
        simp only [enterTraced, hw, if_true]
        rcases hr with h | h
        · by_cases hw' : wantsTrace (runFilters t.filters e) = true
          · simp only [hw', if_true]
          · simp only [hw', if_false, h, Outcome.ending, Bool.false_eq_true]
        · simp only [asked_iff.1 h, if_true]
      · refine .inr (.inr (.inr ⟨e, ⟨.inr ⟨ha, ⟨body, rfl⟩, hr⟩, fun h => hr (.inl h)⟩, ?_⟩))
        have hw' : ¬ wantsTrace (runFilters t.filters e) = true := fun h => hr (.inr (asked_iff.2 h))
        have hx : enter t e ≠ .executed := fun h => hr (.inl h)
        unfold fate
        rw [hm]
        simp only [enterTraced, hw, hw', if_true, if_false, Bool.false_eq_true]
        cases he : enter t e <;> first | exact absurd he hx | rfl
  · have hn : told t d = none := by
      cases h : told t d with
      | none => rfl
      | some m => exact absurd ⟨m, h⟩ ha
    have hw : ¬ wantsTrace (runFilters t.filters d) = true := fun h => ha (asked_iff.2 h)
    by_cases hx : enter t d = .executed
    · refine .inl ⟨?_, .inl ⟨ha, hx⟩⟩
      unfold fate
      rw [hn]
      simp only [enterTraced, hw, if_false, hx, Outcome.ending, Bool.false_eq_true]
    · refine .inr (.inr (.inr ⟨d, ⟨.inl ⟨ha, rfl⟩, hx⟩, ?_⟩))
      unfold fate
      rw [hn]
      simp only [enterTraced, hw, if_false, Bool.false_eq_true]
      cases he : enter t d <;> first | exact absurd he hx | rfl

theorem askSteered_answers {h : Bool} {fail : BitVec 32} {s : Steer} {t : Thread} {d : SeccompData} {real x : BitVec 32}
    (hx : (askSteered h fail s t d real).2.1 = .ok x) : Answers s t d real fail x := by
  unfold askSteered at hx
  rcases fate_cases s t d with ⟨hf, hl⟩ | ⟨e, body, rfl, ha, hr, hf⟩ | ⟨v, rfl, ha, hf⟩ | ⟨y, ⟨hy, hne⟩, hf⟩ <;> rw [hf] at hx
  · cases hx; exact .inl ⟨hl, rfl⟩
  · simp only at hx
    rcases hb : body t with ⟨t', (v | o)⟩ <;> rw [hb] at hx <;> cases hx
    exact .inr (.inr ⟨ha, .inl ⟨hr, t', v, hb, rfl⟩⟩)
  · cases hx; exact .inr (.inr ⟨ha, rfl⟩)
  · have hfail : x = fail := by
      cases he : enter t y <;> rw [he] at hx <;> first | exact absurd he hne | (simp only [stopFate] at hx)
      · cases hx; rfl
      · cases h <;> cases hx; rfl
      · cases hx
      · cases hx
    rcases hy with ⟨ha, rfl⟩ | ⟨ha, ⟨body, rfl⟩, hr⟩
    · exact .inr (.inl ⟨ha, hne, hfail⟩)
    · exact .inr (.inr ⟨ha, .inr ⟨hr, hfail⟩⟩)

theorem answers_unique {s : Steer} {u : Thread} {d : SeccompData} {real fail x y : BitVec 32} (hx : Answers s u d real fail x)
    (hy : Answers s u d real fail y) : x = y := by
  unfold Answers LetPass at hx hy
  by_cases ha : Asked u d
  · cases s with
    | pass => simp only [ha, not_true, false_and, and_self, false_or, or_false, and_false, true_and] at hx hy; rw [hx, hy]
    | skip z => simp [ha] at hx hy; rw [hx, hy]
    | swap e body =>
      by_cases hr : TakesPlace u e
      · simp [ha, hr] at hx hy
        obtain ⟨u1, y1, h1, rfl⟩ := hx
        obtain ⟨u2, y2, h2, rfl⟩ := hy
        rw [h1] at h2
        cases h2
        rfl
      · simp [ha, hr] at hx hy; rw [hx, hy]
  · by_cases he : enter u d = .executed
    · simp [ha, he] at hx hy; rw [hx, hy]
    · simp [ha, he] at hx hy; rw [hx, hy]

theorem stopsAt_dies {s : Steer} {t : Thread} {d x : SeccompData} {o : Outcome} (hx : StopsAt s t d x)
    (ho : enter t x = o ∧ o ∈ [Outcome.trap, .killThread, .killProcess]) : DiesIn s t d t o := by
  rcases hx with ⟨⟨ha, rfl⟩ | ⟨ha, ⟨body, rfl⟩, hr⟩, _⟩
  · exact .inl ⟨ha, ho.1, rfl, ho.2⟩
  · exact .inr ⟨ha, x, body, rfl, .inr ⟨hr, ho.1, rfl, ho.2⟩⟩

theorem askSteered_dies {h : Bool} {fail : BitVec 32} {s : Steer} {t : Thread} {d : SeccompData} {real : BitVec 32} {o : Outcome}
    (hx : (askSteered h fail s t d real).2.1 = .error o) : DiesIn s t d (askSteered h fail s t d real).1 o := by
  unfold askSteered at hx ⊢
  rcases fate_cases s t d with ⟨hf, hl⟩ | ⟨e, body, rfl, ha, hr, hf⟩ | ⟨v, rfl, ha, hf⟩ | ⟨y, hy, hf⟩ <;> rw [hf] at hx ⊢
  · cases hx
  · simp only at hx ⊢
    rcases hb : body t with ⟨t', (v | o')⟩ <;> rw [hb] at hx <;> cases hx
    exact .inr ⟨ha, e, body, rfl, .inl ⟨hr, hb⟩⟩
  · cases hx
  · cases he : enter t y <;> rw [he] at hx <;> first | exact absurd he hy.2 | (simp only [stopFate] at hx ⊢)
    · cases hx
    · cases h <;> cases hx; exact stopsAt_dies hy ⟨he, by simp⟩
    · cases hx; exact stopsAt_dies hy ⟨he, by simp⟩
    · cases hx; exact stopsAt_dies hy ⟨he, by simp⟩

theorem syscallSteered_dies {h : Option Int} {s : Steer} {t : Thread} {d : SeccompData} {body : Thread → Thread × Int} {o : Outcome}
    (hx : (syscallSteered h s t d body).2.1 = .dead o) : DiesIn s t d (syscallSteered h s t d body).1 o := by
  unfold syscallSteered at hx ⊢
  rcases fate_cases s t d with ⟨hf, hl⟩ | ⟨e, body', rfl, ha, hr, hf⟩ | ⟨v, rfl, ha, hf⟩ | ⟨y, hy, hf⟩ <;> rw [hf] at hx ⊢
  · cases hx
  · simp only at hx ⊢
    exact .inr ⟨ha, e, body', rfl, .inl ⟨hr, by rw [← hx]⟩⟩
  · cases hx
  · cases he : enter t y <;> rw [he] at hx <;> first | exact absurd he hy.2 | (simp only [stopFate] at hx ⊢)
    · cases hx
    · cases h <;> cases hx; exact stopsAt_dies hy ⟨he, by simp⟩
    · cases hx; exact stopsAt_dies hy ⟨he, by simp⟩
    · cases hx; exact stopsAt_dies hy ⟨he, by simp⟩

/-- One more step. -/
theorem follow_snoc (a : Act) (t : Thread) (ss : List Steer) (s : Steer) :
    a.follow t (ss ++ [s]) =
      match a.follow t ss with
      | (u, .inl a', log) => ((a'.nextSteered s u).1, (a'.nextSteered s u).2.1, log ++ (a'.nextSteered s u).2.2)
      | r => r := by
  induction ss generalizing a t with
  | nil =>
    simp only [List.nil_append, Act.follow]
    rcases hn : a.nextSteered s t with ⟨t', (a' | r), log⟩ <;> simp
  | cons s' ss ih =>
    simp only [List.cons_append, Act.follow]
    rcases hn : a.nextSteered s' t with ⟨t', (a' | r), log⟩
    · simp only [ih]
      rcases hf : a'.follow t' ss with ⟨u, (a'' | r), log'⟩ <;> simp
    · rfl

/-- The step in which a call ends. -/
theorem follow_end {a : Act} {t t' : Thread} {ss : List Steer} {r : PledgeRes} {log : List SeccompData}
    (h : a.follow t ss = (t', .inr r, log)) :
    ∃ (k : Nat) (s : Steer) (u : Thread) (a' : Act) (log1 log2 : List SeccompData), ss[k]? = some s ∧
      a.follow t (ss.take k) = (u, .inl a', log1) ∧ a'.nextSteered s u = (t', .inr r, log2) := by
  induction ss generalizing a t log with
  | nil => simp [Act.follow] at h
  | cons s ss ih =>
    unfold Act.follow at h
    rcases hn : a.nextSteered s t with ⟨t1, (a1 | r1), log1⟩ <;> rw [hn] at h <;> simp only [Prod.mk.injEq, Sum.inr.injEq] at h
    · obtain ⟨k, s', u, a', l1, l2, h1, h2, h3⟩ := ih (a := a1) (t := t1) (log := (a1.follow t1 ss).2.2) (by rw [← h.1, ← h.2.1])
      refine ⟨k + 1, s', u, a', log1 ++ l1, l2, h1, ?_, h3⟩
      simp only [List.take_succ_cons, Act.follow, hn, h2]
    · obtain ⟨rfl, rfl, rfl⟩ := h
      exact ⟨0, s, t, a, [], log1, rfl, rfl, hn⟩

/-- The answers to the queries so far: `l` has the ids built into each piece of the filter. -/
def AnsweredBy (q : Nat → Query) (ss : List Steer) (at' : Nat → Thread) (l : List (Ids × Filtered)) : Prop :=
  ∀ (j : Nat) (ids : Ids) (f : Filtered), l[j]? = some (ids, f) → ∃ s, ss[j + 1]? = some s ∧
    (f = .KillSelf → Answers s (at' (j + 1)) (q j).getpid (at' (j + 1)).pid (q j).fail ids.pid) ∧
    (f = .TkillSelf → Answers s (at' (j + 1)) (q j).gettid (at' (j + 1)).tid (q j).fail ids.tid)

/-- What a call has made after `k` steps. -/
def ShapeAt (env : Env) (q : Nat → Query) (ps : List Promise) (v : SeccompReturn) (ss : List Steer) (at' : Nat → Thread) (k : Nat) (a : Act) :
    Prop :=
  (a.env = env ∧ a.q = q ∧ a.ps = ps ∧ a.v = v) ∧
  match a.phase with
  | .start => k = 0
  | .making j rest codes => k = j + 1 ∧ ∃ l : List (Ids × Filtered), l.length = j ∧ codes = l.map (fun x => frag x.1 x.2) ∧
      l.map Prod.snd ++ rest = allFilters ps ∧ AnsweredBy q ss at' l
  | .armed prog => k = (pieces ps).length + 2 ∧ ∃ l : List (Ids × Filtered), prog = mixProg l v.toU32 ∧ l.map Prod.snd = allFilters ps ∧
      AnsweredBy q ss at' l

theorem fragSteered_ok {b : Build} {h : Bool} {q : Query} {s : Steer} {t t' : Thread} {f : Filtered} {code : List SockFilter}
    {log : List SeccompData} (hf : fragSteered b h q s t f = (t', .ok (.ok code), log)) :
    ∃ ids, code = frag ids f ∧ (f = .KillSelf → Answers s t q.getpid t.pid q.fail ids.pid) ∧
      (f = .TkillSelf → Answers s t q.gettid t.tid q.fail ids.tid) := by
  by_cases hk : f = .KillSelf
  · subst hk
    simp only [fragSteered, filterToBpf_eq] at hf
    have ha := @askSteered_answers h q.fail s t q.getpid t.pid
    rcases hask : askSteered h q.fail s t q.getpid t.pid with ⟨t1, (o | x), log1⟩ <;> rw [hask] at hf ha <;>
      simp only [Prod.mk.injEq, reduceCtorEq, false_and, and_false, Except.ok.injEq, Res.ok.injEq] at hf
    exact ⟨⟨x, 0⟩, hf.2.1.symm, fun _ => ha rfl, by simp⟩
  · by_cases ht : f = .TkillSelf
    · subst ht
      simp only [fragSteered, filterToBpf_eq] at hf
      have ha := @askSteered_answers h q.fail s t q.gettid t.tid
      rcases hask : askSteered h q.fail s t q.gettid t.tid with ⟨t1, (o | x), log1⟩ <;> rw [hask] at hf ha <;>
        simp only [Prod.mk.injEq, reduceCtorEq, false_and, and_false, Except.ok.injEq, Res.ok.injEq] at hf
      exact ⟨⟨0, x⟩, hf.2.1.symm, by simp, fun _ => ha rfl⟩
    · have : fragSteered b h q s t f = (t, .ok (.ok (frag ⟨0, 0⟩ f)), []) := by
        cases f <;> first | exact absurd rfl hk | exact absurd rfl ht | (simp only [fragSteered, filterToBpf_eq]; done)
      rw [this] at hf
      simp only [Prod.mk.injEq, Except.ok.injEq, Res.ok.injEq] at hf
      exact ⟨⟨0, 0⟩, hf.2.1.symm, fun h => absurd h hk, fun h => absurd h ht⟩

theorem next_shape {env : Env} {q : Nat → Query} {ps : List Promise} {v : SeccompReturn} {ss : List Steer} {at' : Nat → Thread} {k : Nat}
    {a a' : Act} {s : Steer} {t' : Thread} {log : List SeccompData} (h : ShapeAt env q ps v ss at' k a) (hs : ss[k]? = some s)
    (hn : a.nextSteered s (at' k) = (t', .inl a', log)) : ShapeAt env q ps v ss at' (k + 1) a' := by
  obtain ⟨⟨rfl, rfl, rfl, rfl⟩, h⟩ := h
  unfold Act.nextSteered at hn
  cases hp : a.phase with
  | start =>
    rw [hp] at h
    simp only [hp, mapM_filters, Prod.mk.injEq, Sum.inl.injEq] at hn
    rw [← hn.2.1]
    exact ⟨⟨rfl, rfl, rfl, rfl⟩, by rw [h], [], rfl, rfl, rfl, fun j ids f hj => by simp at hj⟩
  | making j todo codes =>
    rw [hp] at hn h
    obtain ⟨rfl, l, hlen, hc, hl, hans⟩ := h
    cases todo with
    | cons f todo =>
      simp only at hn
      rcases hfr : fragSteered a.b a.env.handler (a.q j) s (at' (j + 1)) f with ⟨t1, (o | (code | e | _)), log1⟩ <;> rw [hfr] at hn <;>
        simp only [Prod.mk.injEq, Sum.inl.injEq, reduceCtorEq, false_and, and_false] at hn
      obtain ⟨ids, rfl, h1, h2⟩ := fragSteered_ok hfr
      rw [← hn.2.1]
      refine ⟨⟨rfl, rfl, rfl, rfl⟩, rfl, l ++ [(ids, f)], by simp [hlen], by simp [hc], by simpa using hl, fun i ids' f' hi => ?_⟩
      rw [List.getElem?_append] at hi
      split at hi
      · exact hans i ids' f' hi
      · rename_i hi'
        by_cases h0 : i - l.length = 0
        · rw [h0] at hi
          simp only [List.getElem?_cons_zero, Option.some.injEq, Prod.mk.injEq] at hi
          obtain ⟨rfl, rfl⟩ := hi
          have : i = j := by omega
          subst this
          exact ⟨s, hs, h1, h2⟩
        · rw [List.getElem?_eq_none (by simp; omega)] at hi
          cases hi
    | nil =>
      simp only [bpfHeader_eq, bpfFooter_eq] at hn
      split at hn
      · simp at hn
      · simp only [Prod.mk.injEq, Sum.inl.injEq] at hn
        rw [← hn.2.1, hc]
        rw [List.append_nil] at hl
        refine ⟨⟨rfl, rfl, rfl, rfl⟩, ?_, l, mixProg_parts l a.v.toU32 _ _ rfl rfl, hl, hans⟩
        have : l.length = (pieces a.ps).length := by rw [← List.length_map (f := Prod.snd), hl, pieces_eq]
        omega
  | armed prog =>
    simp only [hp] at hn
    split at hn <;> simp at hn

/-- What a call has made when it is not over yet. -/
theorem shape_at (b : Build) (env : Env) (q : Nat → Query) (ss : List Steer) (t : Thread) (ps : List Promise) (v : SeccompReturn) (k : Nat)
    (hk : k ≤ ss.length) {u : Thread} {a : Act} {log : List SeccompData}
    (h : pledgeSteered b env q (ss.take k) t ps v = (u, .inl a, log)) :
    u = beforeStep b env q ss t ps v k ∧ ShapeAt env q ps v ss (beforeStep b env q ss t ps v) k a := by
  refine ⟨by unfold beforeStep; rw [h], ?_⟩
  induction k generalizing u a log with
  | zero =>
    simp only [pledgeSteered, List.take_zero, Act.follow, Prod.mk.injEq, Sum.inl.injEq] at h
    rw [← h.2.1]
    exact ⟨⟨rfl, rfl, rfl, rfl⟩, rfl⟩
  | succ k ih =>
    have hs : ss[k]? = some ss[k] := List.getElem?_eq_getElem (by omega)
    have htake : ss.take (k + 1) = ss.take k ++ [ss[k]] := by rw [List.take_add_one, hs]; rfl
    unfold pledgeSteered at h
    rw [htake, follow_snoc] at h
    split at h
    · rename_i u' a' log' hf
      have hsh := ih (by omega) (u := u') (a := a') (log := log') hf
      have hu : u' = beforeStep b env q ss t ps v k := by unfold beforeStep pledgeSteered; rw [hf]
      simp only [Prod.mk.injEq] at h
      refine next_shape hsh hs (t' := u) (log := (a'.nextSteered ss[k] u').2.2) ?_
      rw [← hu]
      rw [← h.1, ← h.2.1]
    · rename_i r hr
      exact absurd h (hr _ _ _)

/-! ## what Ok means -/

/-- C110: what Ok means. Let `u` be the thread before its last step; it still has all earlier filters. Then one of three things has
happened. The last call is executed, and the new filter is on top; it decides every system call as the promises demand for the ids that
the queries returned, which are the true ids if the query was executed. Or the tracer was asked about that last call and did not let it
pass: it chose a result that looks like success and nothing else happened, or its own call was executed, with such a result, or its own
call was stopped by an earlier filter, which made it look successful. Or the tracer was not asked, and an earlier filter stopped the call
and made it look successful. -/
theorem C110_ok (b : Build) (env : Env) (q : Nat → Query) (ss : List Steer) (hs : ∀ s ∈ ss, Lawful s) (t t' : Thread)
    (ps : List Promise) (v : SeccompReturn) (log : List SeccompData) (hok : pledgeSteered b env q ss t ps v = (t', .inr .ok, log)) :
    ∃ s, ss[(pieces ps).length + 2]? = some s ∧
      let at' := beforeStep b env q ss t ps v
      let u := at' ((pieces ps).length + 2)
      t.filters <:+ u.filters ∧
      ((LetPass s u (recSeccomp env) ∧ ∃ f p, t' = { u with filters := f :: u.filters } ∧ Decides f p ∧ p.ps = ps ∧ p.v = v ∧
          p.pids.length = ps.count .StdIO ∧ p.tids.length = ps.count .StdIO ∧
          (∀ x, x ∈ p.pids ↔ ∃ k s', (pieces ps)[k]? = some .KillSelf ∧ ss[k + 1]? = some s' ∧
            Answers s' (at' (k + 1)) (q k).getpid (at' (k + 1)).pid (q k).fail x) ∧
          ∀ x, x ∈ p.tids ↔ ∃ k s', (pieces ps)[k]? = some .TkillSelf ∧ ss[k + 1]? = some s' ∧
            Answers s' (at' (k + 1)) (q k).gettid (at' (k + 1)).tid (q k).fail x) ∨
        (Asked u (recSeccomp env) ∧ Faked env s u t') ∨
        (¬ Asked u (recSeccomp env) ∧ LooksDone env u (recSeccomp env) ∧ t' = u)) := by
  obtain ⟨k, s, u, a, log1, log2, hk, hf, hn⟩ := follow_end hok
  have hlt : k < ss.length := (List.getElem?_eq_some_iff.1 hk).1
  obtain ⟨hu, ⟨h1, h2, h3, h4⟩, hsh⟩ := shape_at b env q ss t ps v k (by omega) hf
  have hg : t.filters <:+ u.filters := by
    have := (follow_facts (ss := ss.take k) (fun s' h => hs s' (List.mem_of_mem_take h)) ⟨b, env, q, ps, v, .start⟩ t).1.1
    rw [hf] at this
    exact this
  unfold Act.nextSteered at hn
  cases hp : a.phase with
  | start => simp only [hp, mapM_filters, Prod.mk.injEq, reduceCtorEq, false_and, and_false] at hn
  | making j todo codes =>
    rw [hp] at hn
    cases todo with
    | cons f todo =>
      simp only at hn
      rcases hfr : fragSteered a.b a.env.handler (a.q j) s u f with ⟨t1, (o | (code | e | _)), log1⟩ <;> rw [hfr] at hn <;> simp at hn
    | nil =>
      simp only [bpfHeader_eq, bpfFooter_eq] at hn
      split at hn
      · rename_i e he
        simp only [Prod.mk.injEq, Sum.inr.injEq] at hn
        rw [hn.2.1] at he
        exact absurd he (checkRet_not_ok _ _)
      · simp at hn
  | armed prog =>
    rw [hp] at hn hsh
    obtain ⟨rfl, l, rfl, hl, hans⟩ := hsh
    refine ⟨s, hk, ?_⟩
    simp only
    rw [← hu]
    refine ⟨hg, ?_⟩
    simp only [h1] at hn
    split at hn
    · rename_i e he
      simp only [Prod.mk.injEq, Sum.inr.injEq] at hn
      rw [hn.2.1] at he
      exact absurd he (checkRet_not_ok _ _)
    · rename_i hck
      simp only [Prod.mk.injEq, true_and] at hn
      obtain ⟨rfl, _⟩ := hn
      obtain ⟨x, hx, hx0⟩ := checkRet_none hck
      unfold syscallSteered at hx ⊢
      rcases fate_cases s u (recSeccomp env) with ⟨hf, hp⟩ | ⟨e, body, rfl, ha, hr, hf⟩ | ⟨y, rfl, ha, hf⟩ | ⟨y, hy, hf⟩ <;> rw [hf] at hx ⊢
      · left
        refine ⟨hp, ?_⟩
        simp only [CallRes.ret.injEq] at hx ⊢
        rcases setSeccomp_mix env.seccompFault l v.toU32 u with ⟨h1, _⟩ | ⟨_, e, h1⟩
        · have hlen := pidsOf_length l ps hl
          refine ⟨_, ⟨pidsOf l, tidsOf l, ps, v⟩, by rw [h1], mix_decides l ps v hl, rfl, rfl, hlen.1, hlen.2, fun x => ?_, fun x => ?_⟩
          · rw [mem_pidsOf]
            constructor
            · rintro ⟨ids, hm, rfl⟩
              obtain ⟨i, hi⟩ := List.getElem?_of_mem hm
              obtain ⟨s', h1, h2, _⟩ := hans i ids _ hi
              refine ⟨i, s', ?_, h1, h2 rfl⟩
              rw [pieces_eq, ← hl, List.getElem?_map, hi]; rfl
            · rintro ⟨i, s', hi, h1, h2⟩
              rw [pieces_eq, ← hl, List.getElem?_map] at hi
              cases hli : l[i]? with
              | none => rw [hli] at hi; cases hi
              | some y =>
                obtain ⟨ids, f⟩ := y
                rw [hli] at hi
                cases hi
                obtain ⟨s'', h3, h4, _⟩ := hans i ids _ hli
                rw [h1] at h3
                cases h3
                exact ⟨ids, List.mem_of_getElem? hli, answers_unique (h4 rfl) h2⟩
          · rw [mem_tidsOf]
            constructor
            · rintro ⟨ids, hm, rfl⟩
              obtain ⟨i, hi⟩ := List.getElem?_of_mem hm
              obtain ⟨s', h1, _, h2⟩ := hans i ids _ hi
              refine ⟨i, s', ?_, h1, h2 rfl⟩
              rw [pieces_eq, ← hl, List.getElem?_map, hi]; rfl
            · rintro ⟨i, s', hi, h1, h2⟩
              rw [pieces_eq, ← hl, List.getElem?_map] at hi
              cases hli : l[i]? with
              | none => rw [hli] at hi; cases hi
              | some y =>
                obtain ⟨ids, f⟩ := y
                rw [hli] at hi
                cases hi
                obtain ⟨s'', h3, _, h4⟩ := hans i ids _ hli
                rw [h1] at h3
                cases h3
                exact ⟨ids, List.mem_of_getElem? hli, answers_unique (h4 rfl) h2⟩
        · rw [h1] at hx
          have := e.isLt
          omega
      · simp only at hx ⊢
        exact .inr (.inl ⟨ha, .inl ⟨hr, x, by rw [← hx], hx0⟩⟩)
      · cases hx
        exact .inr (.inl ⟨ha, rfl, hx0⟩)
      · have fin : LooksDone env u y → (Asked u (recSeccomp env) ∧ Faked env s u u) ∨
            (¬ Asked u (recSeccomp env) ∧ LooksDone env u (recSeccomp env) ∧ True) := by
          intro h
          rcases hy with ⟨⟨ha, rfl⟩ | ⟨ha, ⟨body, rfl⟩, hr⟩, _⟩
          · exact .inr ⟨ha, h, trivial⟩
          · exact .inl ⟨ha, .inr ⟨hr, h, rfl⟩⟩
        cases he : enter u y with
        | executed => exact absurd he hy.2
        | errno n =>
          rw [he] at hx
          simp only [stopFate, CallRes.ret.injEq] at hx ⊢
          have hle : n ≤ 4095 := errno_le he
          have : n = 0 := by omega
          subst this
          exact .inr (fin (.inl he))
        | trap =>
          rw [he] at hx
          simp only [stopFate, Env.onTrap] at hx ⊢
          cases hh : env.handler with
          | false => rw [hh] at hx; cases hx
          | true =>
            rw [hh] at hx
            simp only [if_true, CallRes.ret.injEq] at hx ⊢
            subst hx
            exact .inr (fin (.inr ⟨he, hh, hx0⟩))
        | killThread => rw [he] at hx; cases hx
        | killProcess => rw [he] at hx; cases hx

/-! ## what death means -/

theorem checkRet_died {s : Nat} {r : CallRes} {o : Outcome} (h : checkRet s r = some (.died o)) : r = .dead o := by
  cases r with
  | dead o' => cases h; rfl
  | ret v => rw [checkRet_reported] at h; cases hr : reported s v <;> rw [hr] at h <;> cases h

/-- C110: what it means that the caller dies in the call. In some step the library made a system call. Either the tracer was not asked about
it, and the filters ended the thread for it. Or the tracer put another call in its place; either the filters ended the thread for that one,
or that one was executed and the thread did not survive it. -/
theorem C110_died (b : Build) (env : Env) (q : Nat → Query) (ss : List Steer) (t t' : Thread)
    (ps : List Promise) (v : SeccompReturn) (o : Outcome) (log : List SeccompData)
    (hd : pledgeSteered b env q ss t ps v = (t', .inr (.died o), log)) :
    ∃ k s d, ss[k]? = some s ∧ callAt env q ps k = some d ∧ DiesIn s (beforeStep b env q ss t ps v k) d t' o := by
  obtain ⟨k, s, u, a, log1, log2, hk, hf, hn⟩ := follow_end hd
  have hlt : k < ss.length := (List.getElem?_eq_some_iff.1 hk).1
  obtain ⟨hu, ⟨h1, h2, h3, h4⟩, hsh⟩ := shape_at b env q ss t ps v k (by omega) hf
  suffices h : ∃ d, callAt env q ps k = some d ∧ DiesIn s u d t' o by
    obtain ⟨d, h⟩ := h
    exact ⟨k, s, d, hk, hu ▸ h⟩
  unfold Act.nextSteered at hn
  cases hp : a.phase with
  | start => simp only [hp, mapM_filters, Prod.mk.injEq, reduceCtorEq, false_and, and_false] at hn
  | making j todo codes =>
    rw [hp] at hn hsh
    obtain ⟨rfl, l, hlen, hc, hl, hans⟩ := hsh
    cases todo with
    | cons f todo =>
      have hj : (pieces ps)[j]? = some f := by
        rw [pieces_eq, ← hl, List.getElem?_append_right (by simp [hlen])]
        simp [hlen]
      simp only [h1, h2] at hn
      have h5 : (fragSteered a.b env.handler (q j) s u f).1 = t' ∧ (fragSteered a.b env.handler (q j) s u f).2.1 = .error o := by
        rcases hfr : fragSteered a.b env.handler (q j) s u f with ⟨t1, (o | (code | e | _)), log1⟩ <;> rw [hfr] at hn <;>
          simp at hn <;> simp [hn]
      by_cases hk' : f = .KillSelf
      · subst hk'
        simp only [fragSteered] at h5
        have h6 := askSteered_dies (h := env.handler) (fail := (q j).fail) (s := s) (t := u) (d := (q j).getpid) (real := u.pid) (o := o)
        refine ⟨(q j).getpid, by simp only [callAt, hj], ?_⟩
        rcases ha : askSteered env.handler (q j).fail s u (q j).getpid u.pid with ⟨t1, (o | x), log1⟩ <;> rw [ha] at h5 h6
        · obtain ⟨rfl, h5⟩ := h5
          cases h5
          exact h6 rfl
        · cases h5.2
      · by_cases ht : f = .TkillSelf
        · subst ht
          simp only [fragSteered] at h5
          have h6 := askSteered_dies (h := env.handler) (fail := (q j).fail) (s := s) (t := u) (d := (q j).gettid) (real := u.tid) (o := o)
          refine ⟨(q j).gettid, by simp only [callAt, hj], ?_⟩
          rcases ha : askSteered env.handler (q j).fail s u (q j).gettid u.tid with ⟨t1, (o | x), log1⟩ <;> rw [ha] at h5 h6
          · obtain ⟨rfl, h5⟩ := h5
            cases h5
            exact h6 rfl
          · cases h5.2
        · cases f <;> first | exact absurd rfl hk' | exact absurd rfl ht | cases h5.2
    | nil =>
      rw [List.append_nil] at hl
      have hj : j = (pieces ps).length := by rw [pieces_eq, ← hl, List.length_map, hlen]
      simp only [bpfHeader_eq, bpfFooter_eq, h1] at hn
      split at hn
      · rename_i e he
        simp only [Prod.mk.injEq, Sum.inr.injEq] at hn
        obtain ⟨rfl, rfl, _⟩ := hn
        refine ⟨recNnp env, ?_, syscallSteered_dies (checkRet_died he)⟩
        simp only [callAt, hj, List.getElem?_eq_none (Nat.le_refl _), if_true]
      · simp at hn
  | armed prog =>
    rw [hp] at hn hsh
    obtain ⟨rfl, l, rfl, hl, hans⟩ := hsh
    simp only [h1] at hn
    split at hn
    · rename_i e he
      simp only [Prod.mk.injEq, Sum.inr.injEq] at hn
      obtain ⟨rfl, rfl, _⟩ := hn
      refine ⟨recSeccomp env, ?_, syscallSteered_dies (checkRet_died he)⟩
      simp only [callAt, List.getElem?_eq_none (Nat.le_succ _), if_true]
      simp
    · simp at hn

/-! ## what is executed, exactly -/

theorem executes_fate {s : Steer} {t : Thread} {d e : SeccompData} : Executes s t d e ↔
    (fate s t d = .own ∧ e = d) ∨ ∃ body, fate s t d = .other e body := by
  unfold Executes
  rcases fate_cases s t d with ⟨hf, hl⟩ | ⟨x, body, rfl, ha, hr, hf⟩ | ⟨v, rfl, ha, hf⟩ | ⟨y, hy, hf⟩
  · have : ∀ body, fate s t d ≠ .other e body := by rw [hf]; simp
    simp only [hl, hf, true_and, reduceCtorEq, exists_false, or_false, or_iff_left_iff_imp]
    rintro ⟨ha, ⟨body, rfl⟩, _⟩
    rcases hl with hl | hl
    · exact absurd ha hl.1
    · cases hl.2
  · rw [hf]
    have hn : ¬ LetPass (.swap x body) t d := by rintro (h | h); exact absurd ha h.1; cases h.2
    simp only [hn, false_and, false_or, reduceCtorEq, Fate.other.injEq, Steer.swap.injEq, ha, true_and]
    constructor
    · rintro ⟨⟨b, rfl, rfl⟩, _⟩; exact ⟨_, rfl, rfl⟩
    · rintro ⟨b, rfl, rfl⟩; exact ⟨⟨_, rfl, rfl⟩, hr⟩
  · rw [hf]
    have hn : ¬ LetPass (.skip v) t d := by rintro (h | h); exact absurd ha h.1; cases h.2
    simp [hn]
  · have hs : fate s t d ≠ .own ∧ ∀ e body, fate s t d ≠ .other e body := by
      rw [hf]
      have := hy.2
      cases he : enter t y <;> first | exact absurd he this | simp [stopFate]
    simp only [hs.1, hs.2, false_and, exists_false, or_false, iff_false, not_or]
    rcases hy with ⟨⟨ha, rfl⟩ | ⟨ha, ⟨body, rfl⟩, hr⟩, hne⟩
    · refine ⟨?_, fun h => ha h.1⟩
      rintro ⟨h | h, _⟩
      · exact hne h.2
      · exact ha h.1
    · refine ⟨?_, ?_⟩
      · rintro ⟨h | h, _⟩
        · exact h.1 ha
        · cases h.2
      · rintro ⟨_, ⟨b, h⟩, h'⟩
        cases h
        exact hr h'

theorem syscallSteered_log {h : Option Int} {s : Steer} {t : Thread} {d : SeccompData} {body : Thread → Thread × Int} (e : SeccompData) :
    e ∈ (syscallSteered h s t d body).2.2 ↔ Executes s t d e := by
  rw [executes_fate]
  unfold syscallSteered
  cases fate s t d with
  | trap => cases h <;> simp
  | other x b => simp [eq_comm]
  | _ => simp

theorem askSteered_log {h : Bool} {fail : BitVec 32} {s : Steer} {t : Thread} {d : SeccompData} {real : BitVec 32} (e : SeccompData) :
    e ∈ (askSteered h fail s t d real).2.2 ↔ Executes s t d e := by
  rw [executes_fate]
  unfold askSteered
  cases fate s t d with
  | other x b => simp only; rcases hb : b t with ⟨t', (v | o)⟩ <;> simp [eq_comm]
  | _ => simp

theorem fragSteered_log {b : Build} {h : Bool} {q : Query} {s : Steer} {t : Thread} {f : Filtered} (e : SeccompData) :
    e ∈ (fragSteered b h q s t f).2.2 ↔
      (f = .KillSelf ∧ Executes s t q.getpid e) ∨ (f = .TkillSelf ∧ Executes s t q.gettid e) := by
  by_cases hk : f = .KillSelf
  · subst hk
    have := @askSteered_log h q.fail s t q.getpid t.pid e
    simp only [fragSteered]
    rcases ha : askSteered h q.fail s t q.getpid t.pid with ⟨t1, (o | x), log1⟩ <;> rw [ha] at this <;> simpa using this
  · by_cases ht : f = .TkillSelf
    · subst ht
      have := @askSteered_log h q.fail s t q.gettid t.tid e
      simp only [fragSteered]
      rcases ha : askSteered h q.fail s t q.gettid t.tid with ⟨t1, (o | x), log1⟩ <;> rw [ha] at this <;> simpa using this
    · have : (fragSteered b h q s t f).2.2 = [] := by
        cases f <;> first | exact absurd rfl hk | exact absurd rfl ht | rfl
      simp [this, hk, ht]

theorem next_log {env : Env} {q : Nat → Query} {ps : List Promise} {v : SeccompReturn} {ss : List Steer} {at' : Nat → Thread} {k : Nat}
    {a : Act} {s : Steer} (h : ShapeAt env q ps v ss at' k a) (u : Thread) (e : SeccompData) :
    e ∈ (a.nextSteered s u).2.2 ↔ ∃ d, callAt env q ps k = some d ∧ Executes s u d e := by
  obtain ⟨⟨rfl, rfl, rfl, rfl⟩, h⟩ := h
  unfold Act.nextSteered
  cases hp : a.phase with
  | start =>
    rw [hp] at h
    subst h
    simp only [mapM_filters, callAt, List.not_mem_nil, reduceCtorEq, false_and, exists_false]
  | making j todo codes =>
    rw [hp] at h
    obtain ⟨rfl, l, hlen, hc, hl, hans⟩ := h
    cases todo with
    | cons f todo =>
      have hj : (pieces a.ps)[j]? = some f := by
        rw [pieces_eq, ← hl, List.getElem?_append_right (by simp [hlen])]
        simp [hlen]
      have hlog := @fragSteered_log a.b a.env.handler (a.q j) s u f e
      have hgoal : (∃ d, callAt a.env a.q a.ps (j + 1) = some d ∧ Executes s u d e) ↔
          (f = .KillSelf ∧ Executes s u (a.q j).getpid e) ∨ (f = .TkillSelf ∧ Executes s u (a.q j).gettid e) := by
        simp only [callAt, hj]
        cases f <;> simp
      rw [hgoal, ← hlog]
      simp only
      rcases hfr : fragSteered a.b a.env.handler (a.q j) s u f with ⟨t1, (o | (code | e | _)), log1⟩ <;> rfl
    | nil =>
      rw [List.append_nil] at hl
      have hj : j = (pieces a.ps).length := by rw [pieces_eq, ← hl, List.length_map, hlen]
      simp only [bpfHeader_eq, bpfFooter_eq, callAt, hj, List.getElem?_eq_none (Nat.le_refl _), if_true, Option.some.injEq,
        exists_eq_left']
      split <;> exact syscallSteered_log e
  | armed prog =>
    rw [hp] at h
    obtain ⟨rfl, l, rfl, hl, hans⟩ := h
    have : callAt a.env a.q a.ps ((pieces a.ps).length + 2) = some (recSeccomp a.env) := by
      simp only [callAt, List.getElem?_eq_none (Nat.le_succ _), if_true]
      simp
    simp only [this, Option.some.injEq, exists_eq_left']
    split <;> exact syscallSteered_log e

/-- C110: the calls that are executed are exactly those that the library makes and that pass, and those that the tracer puts in the place
of one and that the filters let pass. -/
theorem C110_executed (b : Build) (env : Env) (q : Nat → Query) (ss : List Steer) (t : Thread) (ps : List Promise) (v : SeccompReturn)
    (e : SeccompData) :
    e ∈ (pledgeSteered b env q ss t ps v).2.2 ↔ ∃ k s d, ss[k]? = some s ∧ Going b env q ss t ps v k ∧ callAt env q ps k = some d ∧
      Executes s (beforeStep b env q ss t ps v k) d e := by
  have key : ∀ n, n ≤ ss.length → (e ∈ (pledgeSteered b env q (ss.take n) t ps v).2.2 ↔ ∃ k s d, k < n ∧ ss[k]? = some s ∧
      Going b env q ss t ps v k ∧ callAt env q ps k = some d ∧ Executes s (beforeStep b env q ss t ps v k) d e) := by
    intro n
    induction n with
    | zero => intro _; simp [pledgeSteered, Act.follow]
    | succ n ih =>
      intro hn
      have hs : ss[n]? = some ss[n] := List.getElem?_eq_getElem (by omega)
      have htake : ss.take (n + 1) = ss.take n ++ [ss[n]] := by rw [List.take_add_one, hs]; rfl
      have ih := ih (by omega)
      have split : (∃ k s d, k < n + 1 ∧ ss[k]? = some s ∧ Going b env q ss t ps v k ∧ callAt env q ps k = some d ∧
            Executes s (beforeStep b env q ss t ps v k) d e) ↔
          (∃ k s d, k < n ∧ ss[k]? = some s ∧ Going b env q ss t ps v k ∧ callAt env q ps k = some d ∧
            Executes s (beforeStep b env q ss t ps v k) d e) ∨
          (Going b env q ss t ps v n ∧ ∃ d, callAt env q ps n = some d ∧ Executes ss[n] (beforeStep b env q ss t ps v n) d e) := by
        constructor
        · rintro ⟨k, s, d, hk, h1, h2, h3, h4⟩
          by_cases hkn : k = n
          · subst hkn
            rw [hs] at h1
            cases h1
            exact .inr ⟨h2, d, h3, h4⟩
          · exact .inl ⟨k, s, d, by omega, h1, h2, h3, h4⟩
        · rintro (⟨k, s, d, hk, h⟩ | ⟨h2, d, h3, h4⟩)
          · exact ⟨k, s, d, by omega, h⟩
          · exact ⟨n, ss[n], d, by omega, hs, h2, h3, h4⟩
      rw [split, ← ih]
      have hsh := @shape_at b env q ss t ps v n (by omega)
      unfold Going
      rw [htake]
      unfold pledgeSteered at hsh ⊢
      rw [follow_snoc]
      rcases hf : Act.follow ⟨b, env, q, ps, v, .start⟩ t (ss.take n) with ⟨u, (a | r), log⟩
      · obtain ⟨rfl, hsh⟩ := hsh hf
        simp only [List.mem_append, next_log hsh, Sum.isLeft_inl, true_and]
      · simp
  have h := key ss.length (Nat.le_refl _)
  rw [List.take_length] at h
  rw [h]
  constructor
  · rintro ⟨k, s, d, _, h⟩; exact ⟨k, s, d, h⟩
  · rintro ⟨k, s, d, h1, h⟩; exact ⟨k, s, d, (List.getElem?_eq_some_iff.1 h1).1, h1, h⟩

/-! ## if the tracer is asked -/

theorem fate_pass {t : Thread} {d : SeccompData} {m : BitVec 16} (h : told t d = some m) : fate .pass t d = .own := by
  unfold fate
  rw [h]
  simp only [enterTraced, told_some h, if_true]

theorem frag_pass (b : Build) (h : Bool) (q : Query) (t : Thread) (f : Filtered) {m m' : BitVec 16} (h1 : told t q.getpid = some m)
    (h2 : told t q.gettid = some m') : ∃ log, fragSteered b h q .pass t f = (t, .ok (.ok (frag ⟨t.pid, t.tid⟩ f)), log) := by
  by_cases hk : f = .KillSelf
  · subst hk
    simp only [fragSteered, askSteered, fate_pass h1, filterToBpf_eq]
    exact ⟨_, rfl⟩
  · by_cases ht : f = .TkillSelf
    · subst ht
      simp only [fragSteered, askSteered, fate_pass h2, filterToBpf_eq]
      exact ⟨_, rfl⟩
    · refine ⟨[], ?_⟩
      rw [← frag_noid ⟨0, 0⟩ ⟨t.pid, t.tid⟩ f ⟨hk, ht⟩]
      cases f <;> first | exact absurd rfl hk | exact absurd rfl ht | (simp only [fragSteered, filterToBpf_eq]; done)

theorem follow_frags (b : Build) (env : Env) (q : Nat → Query) (ps : List Promise) (v : SeccompReturn) (t : Thread) (m : BitVec 16)
    (hq : ∀ k, told t (q k).getpid = some m ∧ told t (q k).gettid = some m) (k : Nat) (fs : List Filtered)
    (codes : List (List SockFilter)) (ss : List Steer) : ∃ log k',
    (Act.mk b env q ps v (.making k fs codes)).follow t (List.replicate fs.length .pass ++ ss) =
      let r := (Act.mk b env q ps v (.making k' [] (codes ++ fs.map (frag ⟨t.pid, t.tid⟩)))).follow t ss
      (r.1, r.2.1, log ++ r.2.2) := by
  induction fs generalizing k codes with
  | nil => exact ⟨[], k, by simp⟩
  | cons f fs ih =>
    obtain ⟨log1, h1⟩ := frag_pass b env.handler (q k) t f (hq k).1 (hq k).2
    obtain ⟨log2, k', h2⟩ := ih (k + 1) (codes ++ [frag ⟨t.pid, t.tid⟩ f])
    refine ⟨log1 ++ log2, k', ?_⟩
    simp only [List.length_cons, List.replicate_succ, List.cons_append, Act.follow, Act.nextSteered, h1, h2, List.map_cons,
      List.append_assoc, List.nil_append]

/-- C110: a tracer that is asked can let all calls of the library pass but the last, and have any filter the kernel accepts installed in
place of the one for the promises. `pledge_override` returns Ok. The substitute is the same prctl call with a program of the tracer's; it
and the prctl call before it are the last calls executed. -/
theorem C110_swapped (b : Build) (env : Env) (q : Nat → Query) (t : Thread) (l : List Past) (hl : HasPledged t l) (ps : List Promise)
    (v : SeccompReturn) (m : BitVec 16) (ha : told t (recNnp env) = some m) (hn : env.nnpFault = none) (g : Prog)
    (hg : accepts g = true) (hg' : g.length ≤ 4096) :
    ∃ ss log, (∀ s ∈ ss, Lawful s) ∧
      pledgeSteered b env q ss t ps v = ({ t with nnp := true, filters := g :: t.filters }, .inr .ok, log ++ [recNnp env, recSeccomp env]) := by
  have hq : ∀ k, told t (q k).getpid = some m ∧ told t (q k).gettid = some m := by
    intro k
    obtain ⟨env', h1, h2⟩ := query_rec env (q k)
    rw [h1, h2, told_own hl env' env _ (.inl rfl), told_own hl env' env _ (.inr (.inl rfl))]
    exact ⟨ha, ha⟩
  have h3 : told { t with nnp := true } (recSeccomp env) = some m := by
    rw [told_filters (u := { t with nnp := true }) (t := t) rfl, told_own hl env env _ (.inr (.inr (.inr rfl))), ha]
  have hg0 : ¬ (g.length = 0 ∨ maxInsns < g.length) := by
    rintro (h | h)
    · rw [List.length_eq_zero_iff.1 h] at hg; exact absurd hg (by decide)
    · unfold maxInsns at h; omega
  have hins : setSeccomp none g { t with nnp := true } = ({ t with nnp := true, filters := g :: t.filters }, 0) := by
    unfold setSeccomp
    simp only [if_neg hg0]
    rw [if_neg (by simp), if_neg (by simp [hg])]
  let put : Steer := .swap (recSeccomp env) fun u => ((setSeccomp none g u).1, .ret (setSeccomp none g u).2)
  obtain ⟨log, k', h⟩ := follow_frags b env q ps v t m hq 0 (allFilters ps) [] [.pass, put]
  have hput : fate put { t with nnp := true } (recSeccomp env) =
      .other (recSeccomp env) fun u => ((setSeccomp none g u).1, .ret (setSeccomp none g u).2) := by
    unfold fate
    rw [h3]
    simp only [put, enterTraced, told_some h3, if_true]
  have hck : checkRet env.errno.1 (.ret 0) = none ∧ checkRet env.errno.2 (.ret 0) = none := ⟨rfl, rfl⟩
  refine ⟨.pass :: (List.replicate (allFilters ps).length .pass ++ [.pass, put]), log, ?_, ?_⟩
  rotate_left
  · unfold pledgeSteered
    rw [Act.follow]
    simp only [Act.nextSteered, mapM_filters]
    rw [show ((Promise.Default :: ps).map filtersOf).flatten = allFilters ps from rfl, h]
    simp only [Act.follow, Act.nextSteered, bpfHeader_eq, bpfFooter_eq, syscallSteered, fate_pass ha, setNnp, hn, hck, hput, hins]
    rfl
  · intro s hs
    simp only [List.mem_cons, List.mem_append, List.mem_replicate, List.not_mem_nil, or_false] at hs
    rcases hs with rfl | ⟨_, rfl⟩ | rfl | rfl
    · trivial
    · trivial
    · trivial
    · exact fun u => setSeccomp_grown _ _ u

/-! ## a tracer that only passes and skips -/

theorem syscall_steerOf (h : Option Int) (w : Wish) (t : Thread) (d : SeccompData) (body : Thread → Thread × Int) {m : BitVec 16}
    (ha : told t d = some m) : ∃ log, syscallSteered h (steerOf w) t d body =
      ((syscallTraced h w t d body).1, (syscallTraced h w t d body).2, log) := by
  cases w with
  | pass => exact ⟨[d], by simp only [steerOf, syscallSteered, fate_pass ha, syscallTraced_pass h t d body m ha]⟩
  | skip x =>
    refine ⟨[], ?_⟩
    have hf : fate (.skip x) t d = .skipped x := by unfold fate; rw [ha]
    simp only [steerOf, syscallSteered, hf, syscallTraced_skip h t d body m x ha]

theorem follow_wished (b : Build) (env : Env) (q : Nat → Query) (ps : List Promise) (v : SeccompReturn) (w : Fin 4 → Wish) (t : Thread)
    (m : BitVec 16) (hq : ∀ k, told t (q k).getpid = some m ∧ told t (q k).gettid = some m) (k : Nat) (fs : List Filtered)
    (codes : List (List SockFilter)) (ss : List Steer) : ∃ log k',
    (Act.mk b env q ps v (.making k fs codes)).follow t (fs.map (fun
        | .KillSelf => steerOf (w 0)
        | .TkillSelf => steerOf (w 1)
        | _ => .pass) ++ ss) =
      let r := (Act.mk b env q ps v (.making k' [] (codes ++ fs.map (frag ⟨wished t.pid (w 0), wished t.tid (w 1)⟩)))).follow t ss
      (r.1, r.2.1, log ++ r.2.2) := by
  induction fs generalizing k codes with
  | nil => exact ⟨[], k, by simp⟩
  | cons f fs ih =>
    obtain ⟨log2, k', h2⟩ := ih (k + 1) (codes ++ [frag ⟨wished t.pid (w 0), wished t.tid (w 1)⟩ f])
    have hask : ∀ (x : Wish) (d : SeccompData) (real : BitVec 32), told t d = some m →
        ∃ log, askSteered env.handler (q k).fail (steerOf x) t d real = (t, .ok (wished real x), log) := by
      intro x d real hd
      cases x with
      | pass => exact ⟨_, by simp only [steerOf, askSteered, fate_pass hd, wished]; rfl⟩
      | skip y =>
        have hf : fate (.skip y) t d = .skipped y := by unfold fate; rw [hd]
        exact ⟨_, by simp only [steerOf, askSteered, hf, wished]; rfl⟩
    have h1 : ∃ log, fragSteered b env.handler (q k) ((fun
        | .KillSelf => steerOf (w 0)
        | .TkillSelf => steerOf (w 1)
        | _ => .pass : Filtered → Steer) f) t f = (t, .ok (.ok (frag ⟨wished t.pid (w 0), wished t.tid (w 1)⟩ f)), log) := by
      by_cases hk : f = .KillSelf
      · subst hk
        obtain ⟨log, h⟩ := hask (w 0) (q k).getpid t.pid (hq k).1
        refine ⟨log, ?_⟩
        simp only [fragSteered, h, filterToBpf_eq]
        rfl
      · by_cases ht : f = .TkillSelf
        · subst ht
          obtain ⟨log, h⟩ := hask (w 1) (q k).gettid t.tid (hq k).2
          refine ⟨log, ?_⟩
          simp only [fragSteered, h, filterToBpf_eq]
          rfl
        · refine ⟨[], ?_⟩
          rw [← frag_noid ⟨0, 0⟩ ⟨wished t.pid (w 0), wished t.tid (w 1)⟩ f ⟨hk, ht⟩]
          cases f <;> first | exact absurd rfl hk | exact absurd rfl ht | (simp only [fragSteered, filterToBpf_eq]; done)
    obtain ⟨log1, h1⟩ := h1
    refine ⟨log1 ++ log2, k', ?_⟩
    simp only [List.map_cons, List.cons_append, Act.follow, Act.nextSteered, h1, h2, List.append_assoc, List.nil_append]

/-- C110: for a tracer that only passes and skips calls, and treats all queries of a kind alike, the two models agree: it does not matter
that `Model/Traced.lean` makes one query of each kind. -/
theorem C110_only_skips (b : Build) (env : Env) (q : Nat → Query) (w : Fin 4 → Wish) (t : Thread) (l : List Past) (hl : HasPledged t l)
    (ps : List Promise) (v : SeccompReturn) :
    (pledgeSteered b env q (steersOf w ps) t ps v).1 = (pledgeTraced b env w t ps v).1 ∧
    (pledgeSteered b env q (steersOf w ps) t ps v).2.1 = .inr (pledgeTraced b env w t ps v).2 := by
  cases ha : told t (recNnp env) with
  | none =>
    rw [C106_unasked b env w t l hl ps v ha]
    refine C110_unasked b env q _ t l hl ps v ha ?_
    simp only [steersOf, pieces_eq, allFilters, List.cons_append, List.length_cons, List.length_append, List.length_map, List.length_nil]
    omega
  | some m =>
    have hq : ∀ k, told t (q k).getpid = some m ∧ told t (q k).gettid = some m := by
      intro k
      obtain ⟨env', h1, h2⟩ := query_rec env (q k)
      rw [h1, h2, told_own hl env' env _ (.inl rfl), told_own hl env' env _ (.inr (.inl rfl))]
      exact ⟨ha, ha⟩
    obtain ⟨log, k', h⟩ := follow_wished b env q ps v w t m hq 0 (allFilters ps) [] [steerOf (w 2), steerOf (w 3)]
    have hids : (allFilters ps).map (frag ⟨wished t.pid (w 0), wished t.tid (w 1)⟩) = (allFilters ps).map (frag (wishedIds w t ps)) := by
      unfold wishedIds
      by_cases hs : Promise.StdIO ∈ ps
      · rw [if_pos hs]
      · rw [if_neg hs]
        refine List.map_congr_left fun f hf => frag_noid _ _ f ?_
        have hall : ∀ p, p ≠ .StdIO → Filtered.KillSelf ∉ filtersOf p ∧ Filtered.TkillSelf ∉ filtersOf p := by
          intro p; cases p <;> decide +kernel
        unfold allFilters at hf
        obtain ⟨fs, h1, h2⟩ := List.mem_flatten.1 hf
        obtain ⟨p, h3, rfl⟩ := List.mem_map.1 h1
        have hp : p ≠ .StdIO := by
          rintro rfl
          rcases List.mem_cons.1 h3 with h3 | h3
          · exact absurd h3 (by decide)
          · exact hs h3
        exact ⟨fun e => (hall p hp).1 (e ▸ h2), fun e => (hall p hp).2 (e ▸ h2)⟩
    have hstart : pledgeSteered b env q (steersOf w ps) t ps v =
        (Act.mk b env q ps v (.making 0 (allFilters ps) [])).follow t ((allFilters ps).map (fun
          | .KillSelf => steerOf (w 0)
          | .TkillSelf => steerOf (w 1)
          | _ => .pass) ++ [steerOf (w 2), steerOf (w 3)]) := by
      unfold pledgeSteered steersOf
      rw [List.cons_append, Act.follow, pieces_eq]
      simp only [Act.nextSteered, mapM_filters, List.nil_append]
      rfl
    rw [hstart, h, hids]
    unfold pledgeTraced
    rw [askIdsTraced_asked env w t l hl ps m ha]
    obtain ⟨log1, hr1⟩ := syscall_steerOf (env.onTrap env.trapRet.1) (w 2) t (recNnp env) (setNnp env.nnpFault) ha
    have hf1 : (syscallTraced (env.onTrap env.trapRet.1) (w 2) t (recNnp env) (setNnp env.nnpFault)).1.filters = t.filters := by
      cases w 2 with
      | pass =>
        rw [syscallTraced_pass _ _ _ _ m ha]
        unfold setNnp
        split <;> rfl
      | skip x => rw [syscallTraced_skip _ _ _ _ m x ha]
    rcases hu : syscallTraced (env.onTrap env.trapRet.1) (w 2) t (recNnp env) (setNnp env.nnpFault) with ⟨u, x1⟩
    rw [hu] at hr1 hf1
    have h3 : told u (recSeccomp env) = some m := by rw [told_filters hf1, told_own hl env env _ (.inr (.inr (.inr rfl))), ha]
    have hprog : (([[⟨0x20, 0, 0, 4⟩, ⟨0x15, 1, 0, 0xc000003e⟩, ⟨0x6, 0, 0, 0x80000000⟩, ⟨0x20, 0, 0, 0⟩]] : List (List SockFilter)) ++
        ([] ++ (allFilters ps).map (frag (wishedIds w t ps))) ++ [[(⟨0x6, 0, 0, v.toU32⟩ : SockFilter)]]).flatten =
          progOf (wishedIds w t ps) ps v.toU32 := by
      simp [progOf, header, body, List.flatten_append]
    obtain ⟨log2, hr2⟩ := syscall_steerOf (env.onTrap env.trapRet.2) (w 3) u (recSeccomp env)
      (setSeccomp env.seccompFault ((progOf (wishedIds w t ps) ps v.toU32).take ((progOf (wishedIds w t ps) ps v.toU32).length % 2 ^ 16))) h3
    simp only [Act.follow, Act.nextSteered, bpfHeader_eq, bpfFooter_eq, promisesToProg_eq, hr1, hprog]
    cases hc : checkRet env.errno.1 x1 with
    | some e => exact ⟨rfl, rfl⟩
    | none =>
      simp only [hr2]
      cases hc2 : checkRet env.errno.2 _ <;> exact ⟨rfl, rfl⟩

/-! ## the hypotheses can be met -/

/-- The thread of C106, whose tracer is asked about the library's calls: the tracer has a filter installed that allows everything. -/
example (b : Build) (q : Nat → Query) (ps : List Promise) (v : SeccompReturn) : ∃ ss log, (∀ s ∈ ss, Lawful s) ∧
    pledgeSteered b calm q ss traced0 ps v = ({ traced0 with filters := [⟨0x6, 0, 0, 0x7fff0000⟩] :: traced0.filters }, .inr .ok,
      log ++ [recNnp calm, recSeccomp calm]) :=
  C110_swapped b calm q traced0 _ traced0_pledged ps v _ traced0_told rfl [⟨0x6, 0, 0, 0x7fff0000⟩] (by decide) (by decide)

/-- The thread of C106 again, pledging StdIO: a tracer that skips each getpid and gettid and the first call of prctl. It is asked about all
of them. -/
example (b : Build) (q : Nat → Query) (v : SeccompReturn) :
    let w : Fin 4 → Wish := fun i => if i = 3 then .pass else .skip 0
    Steer.skip 0 ∈ steersOf w [.StdIO] ∧ (told traced0 (recNnp calm)).isSome ∧
    (pledgeSteered b calm q (steersOf w [.StdIO]) traced0 [.StdIO] v).2.1 = .inr (pledgeTraced b calm w traced0 [.StdIO] v).2 := by
  refine ⟨?_, by rw [traced0_told]; rfl, (C110_only_skips b calm q _ traced0 _ traced0_pledged [.StdIO] v).2⟩
  simp [steersOf, steerOf]

/-- A thread that pledged StdIO with KillProcess and then RPath with Trace(7): the tracer is asked about the library's calls, but nothing
that it puts in their place opens a file. -/
example (b : Build) (env : Env) (q : Nat → Query) (ss : List Steer) (hs : ∀ s ∈ ss, Lawful s) (t : Thread)
    (hl : HasPledged t [⟨⟨100, 100⟩, [.RPath], .Trace 7⟩, ⟨⟨100, 100⟩, [.StdIO], .KillProcess⟩]) :
    (∃ m, told t (recNnp env) = some m) ∧
    ∀ ps v, ∀ e ∈ (pledgeSteered b env q ss t ps v).2.2, Allows ⟨100, 100⟩ [.StdIO] e := by
  refine ⟨(C106_asked env t _ hl (by simp [PayloadFits])).2 ⟨?_, _, List.mem_cons_self, by decide, 7, 7, rfl, by decide, rfl⟩, ?_⟩
  · intro p hp
    simp only [List.mem_cons, List.not_mem_nil, or_false] at hp
    rcases hp with rfl | rfl
    · exact .inr (.inr ⟨7, 7, rfl, by decide, rfl⟩)
    · exact .inl (List.mem_singleton.2 rfl)
  · intro ps v e he
    exact C110_firm b env q ss hs t _ hl ps v e he ⟨⟨100, 100⟩, [.StdIO], .KillProcess⟩ (by simp) trivial

/-- A thread that pledged StdIO with KillProcess and then RPath with Trace(7), and pledges again: the tracer puts `execve` in the place of the
first prctl call, and the first pledge kills the process. -/
example (b : Build) (env : Env) (q : Nat → Query) (body : Thread → Thread × CallRes) (v : SeccompReturn) (t : Thread)
    (hl : HasPledged t [⟨⟨100, 100⟩, [.RPath], .Trace 7⟩, ⟨⟨100, 100⟩, [.StdIO], .KillProcess⟩]) :
    pledgeSteered b env q [.pass, .pass, .swap (mkCall 59 []) body] t [] v = (t, .inr (.died .killProcess), []) ∧
    enter t (mkCall 59 []) = .killProcess := by
  have hk : enter t (mkCall 59 []) = .killProcess ∧ wantsTrace (runFilters t.filters (mkCall 59 [])) = false := by
    have hv : ∀ (ps : List Promise) (v : BitVec 32), .Exec ∉ ps → verdict ⟨100, 100⟩ ps v (mkCall 59 []) = v := by
      intro ps v hx
      have hd := (C34_exec ⟨100, 100⟩ ps (mkCall 59 []) (.inl ⟨rfl, rfl⟩)).2.2 hx
      rcases verdict_three ⟨100, 100⟩ ps v (mkCall 59 []) with ⟨h, _⟩ | ⟨_, h⟩ | ⟨h, _⟩
      · exact (not_both h hd).elim
      · exact h
      · exact absurd rfl h
    unfold enter
    rw [runFilters_pledged hl]
    simp only [List.map_cons, List.map_nil, hv [.RPath] _ (by decide), hv [.StdIO] _ (by decide)]
    decide +kernel
  obtain ⟨m, ha⟩ := (C106_asked env t _ hl (by simp [PayloadFits])).2 ⟨by
    intro p hp
    simp only [List.mem_cons, List.not_mem_nil, or_false] at hp
    rcases hp with rfl | rfl
    · exact .inr (.inr ⟨7, 7, rfl, by decide, rfl⟩)
    · exact .inl (List.mem_singleton.2 rfl), _, List.mem_cons_self, by decide, 7, 7, rfl, by decide, rfl⟩
  have hf : fate (.swap (mkCall 59 []) body) t (recNnp env) = .killed .killProcess := by
    unfold fate
    rw [ha]
    simp only [enterTraced, told_some ha, if_true, hk.2, hk.1, Outcome.ending]
    rfl
  refine ⟨?_, hk.1⟩
  have hfr : fragSteered b env.handler (q 0) .pass t (.Whitelist 60) = (t, .ok (.ok (frag ⟨0, 0⟩ (.Whitelist 60))), []) := by
    simp only [fragSteered, filterToBpf_eq]
  unfold pledgeSteered
  simp only [Act.follow, Act.nextSteered, mapM_filters]
  rw [show ((Promise.Default :: []).map filtersOf).flatten = [.Whitelist 60] from rfl]
  simp only [hfr, bpfHeader_eq, bpfFooter_eq, syscallSteered, hf, checkRet, List.nil_append, List.append_nil]

end Props
