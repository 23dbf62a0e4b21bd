import Verif.Proofs.Signals

/-!
# C84, C85: pledges interrupted by signal handlers

Handlers run between any two steps of `pledge_override` and can do anything: system calls, further pledges, forks, jumps out of the
interrupted call.
-/
set_option autoImplicit false

namespace Props
open Bpfvm Kernel Pledge Spec

/-- The calls of `pledge_override` in `ms`, with what their queries seem to return if they fail. -/
theorem ran (strict : Bool) (s : System) (ms : List Move) (hs : Fresh s) (ho : OnlyLibrary ms)
    (hb : strict = true → ∀ ps v, Called ms ps v → ¬ Between v) :
    WildOK strict (fun q ps v => ∃ i b env, .enter i b env q ps v ∈ ms) ((quiet s).run ms) :=
  run_ok (fun h q ps v ⟨i, b, env, hm⟩ => hb h ps v ⟨i, b, env, q, hm⟩) ms (quiet_ok s hs)
    (fun i b env _ _ _ hm => ⟨i, b, env, hm⟩) ho

/-- C84: at every point of every run in which only the library installs filters, each filter of each thread decides every system call
exactly as one of the calls of `pledge_override` in the run demands, with as many ids as the promises have StdIOs. The ids are those of
the thread or of threads it descends from, or what a query seemed to return that a filter kept from being executed. -/
theorem C84_complete_filters (s : System) (ms : List Move) (hs : Fresh s) (ho : OnlyLibrary ms) (k : Nat) (sl : Busy)
    (hk : ((quiet s).run ms)[k]? = some sl) (f : Prog) (hf : f ∈ sl.thread.filters) :
    ∃ p : Told, Decides f p ∧ Called ms p.ps p.v ∧
      p.pids.length = p.ps.count .StdIO ∧ p.tids.length = p.ps.count .StdIO ∧
      (∀ x ∈ p.pids, (∃ i ∈ sl.line, i.pid = x) ∨ MadeUp ms p.ps p.v x) ∧
      (∀ x ∈ p.tids, (∃ i ∈ sl.line, i.tid = x) ∨ MadeUp ms p.ps p.v x) := by
  have h := ran false s ms hs ho (by simp) sl (List.mem_of_getElem? hk)
  obtain ⟨l, ps, v, q, rfl, h2, ⟨i, b, env, h3⟩, h4⟩ := h.filters f hf
  have hlen := pidsOf_length l ps h2
  refine ⟨⟨pidsOf l, tidsOf l, ps, v⟩, mix_decides l ps v h2, ⟨i, b, env, q, h3⟩, hlen.1, hlen.2, ?_, ?_⟩
  · intro x hx
    obtain ⟨ids, hm, rfl⟩ := (mem_pidsOf _ _).1 hx
    exact ((h4 _ hm).1 rfl).imp id fun ⟨_, k, he⟩ => ⟨i, b, env, q, k, h3, he⟩
  · intro x hx
    obtain ⟨ids, hm, rfl⟩ := (mem_tidsOf _ _).1 hx
    exact ((h4 _ hm).2 rfl).imp id fun ⟨_, k, he⟩ => ⟨i, b, env, q, k, h3, he⟩

/-- C84, with violations whose payload does not turn the action into an undefined one above LOG: the ids are those of the thread or of
threads it descends from, and a thread that has a filter has no_new_privs. -/
theorem C84_true_ids (s : System) (ms : List Move) (hs : Fresh s) (ho : OnlyLibrary ms)
    (hb : ∀ ps v, Called ms ps v → ¬ Between v) (k : Nat) (sl : Busy) (hk : ((quiet s).run ms)[k]? = some sl) :
    (∀ f ∈ sl.thread.filters, ∃ p : Told, Decides f p ∧ Called ms p.ps p.v ∧
      p.pids.length = p.ps.count .StdIO ∧ p.tids.length = p.ps.count .StdIO ∧
      (∀ x ∈ p.pids, ∃ i ∈ sl.line, i.pid = x) ∧ (∀ x ∈ p.tids, ∃ i ∈ sl.line, i.tid = x)) ∧
    (sl.thread.filters ≠ [] → sl.thread.nnp = true) := by
  have h := ran true s ms hs ho (fun _ => hb) sl (List.mem_of_getElem? hk)
  refine ⟨fun f hf => ?_, h.nnp rfl⟩
  obtain ⟨l, ps, v, q, rfl, h2, ⟨i, b, env, h3⟩, h4⟩ := h.filters f hf
  have hlen := pidsOf_length l ps h2
  refine ⟨⟨pidsOf l, tidsOf l, ps, v⟩, mix_decides l ps v h2, ⟨i, b, env, q, h3⟩, hlen.1, hlen.2, ?_, ?_⟩
  · intro x hx
    obtain ⟨ids, hm, rfl⟩ := (mem_pidsOf _ _).1 hx
    exact ((h4 _ hm).1 rfl).resolve_right (by simp)
  · intro x hx
    obtain ⟨ids, hm, rfl⟩ := (mem_tidsOf _ _).1 hx
    exact ((h4 _ hm).2 rfl).resolve_right (by simp)

/-- The fate of the library's own calls is to be executed, or that of a violation of a pledge without StdIO. -/
theorem own_fate {strict : Bool} {E : (Nat → Query) → List Promise → SeccompReturn → Prop} {t : Thread} {line : List Ids}
    (h : ∀ f ∈ t.filters, FilterOK strict E line f) (env : Env) :
    enter t (recSeccomp env) = .executed ∨
    ∃ q ps v, E q ps v ∧ .StdIO ∉ ps ∧ enter t (recSeccomp env) = outcome v.toU32 := by
  unfold enter
  rw [runFilters_eq]
  rcases combine_mem 0x7fff0000#32 (t.filters.map fun f => cur f (recSeccomp env)) with hm | hm
  · rw [hm]; left; decide
  · obtain ⟨f, hf, he⟩ := List.mem_map.1 hm
    obtain ⟨p, h1, ⟨q, h2⟩, h3, h4⟩ := (h f hf).told
    rw [← he, decides_cur h1, told_own p (told_nonempty h3 h4) env _ (.inr (.inr (.inr rfl)))]
    by_cases hs : .StdIO ∈ p.ps
    · rw [if_pos hs]; left; decide
    · rw [if_neg hs]; exact .inr ⟨q, p.ps, p.v, h2, hs, rfl⟩

/-- C84, Ok: if no pledge without StdIO in the run answers violations with Errno(0) or Trap, then a call that returns Ok, however often
it was interrupted and whatever the handlers did, leaves on top of the filters the thread had before its last step one that decides
every system call as its promises and violation demand. -/
theorem C84_ok_enforced (s : System) (ms : List Move) (hs : Fresh s) (ho : OnlyLibrary ms)
    (hv : ∀ ps v, Called ms ps v → .StdIO ∈ ps ∨ outcome v.toU32 ≠ .errno 0 ∧ outcome v.toU32 ≠ .trap)
    (k : Nat) (t t' : Thread) (a : Act) (rest : List Act) (line : List Ids)
    (hk : ((quiet s).run ms)[k]? = some ⟨t, a :: rest, line⟩) (hok : a.next t = (t', .inr .ok)) :
    ∃ (f : Prog) (p : Told), t'.filters = f :: t.filters ∧ Decides f p ∧ p.ps = a.ps ∧ p.v = a.v ∧ Called ms p.ps p.v ∧
      p.pids.length = p.ps.count .StdIO ∧ p.tids.length = p.ps.count .StdIO ∧
      (∀ x ∈ p.pids, (∃ i ∈ line, i.pid = x) ∨ MadeUp ms p.ps p.v x) ∧
      (∀ x ∈ p.tids, (∃ i ∈ line, i.tid = x) ∨ MadeUp ms p.ps p.v x) := by
  have h := ran false s ms hs ho (by simp) _ (List.mem_of_getElem? hk)
  have hE := (h.acts a (by simp)).1
  -- the call was at its last step, which was executed
  have key : ∃ l, l.map Prod.snd = allFilters a.ps ∧ Src false line a.q l ∧ t'.filters = mixProg l a.v.toU32 :: t.filters := by
    obtain ⟨_, hph⟩ := h.acts a (by simp)
    unfold Act.next at hok
    cases hp : a.phase with
    | start =>
      simp only [hp, mapM_filters] at hok
      simp at hok
    | making n todo codes =>
      rw [hp] at hok
      exfalso
      cases todo with
      | cons f todo =>
        simp only at hok
        split at hok <;> simp at hok
      | nil =>
        simp only [bpfHeader_eq, bpfFooter_eq] at hok
        split at hok
        · rename_i e hck
          simp only [Prod.mk.injEq, Sum.inr.injEq] at hok
          rw [hok.2] at hck
          unfold checkRet at hck
          repeat' split at hck
          all_goals cases hck
        · simp at hok
    | armed prog =>
      rw [hp] at hph hok
      obtain ⟨l, rfl, hl, hsrc, _⟩ := hph
      refine ⟨l, hl, hsrc.resolve_right (by simp), ?_⟩
      simp only at hok
      have hx : enter t (recSeccomp a.env) = .executed := by
        rcases own_fate h.filters a.env with hx | ⟨q, ps, v, ⟨i, b, env, hm⟩, hs, hx⟩
        · exact hx
        · obtain ⟨v1, v2⟩ := (hv ps v ⟨i, b, env, q, hm⟩).resolve_left hs
          rw [← hx] at v1 v2
          simp only [syscall] at hok
          cases ho : enter t (recSeccomp a.env) with
          | executed => rfl
          | errno n =>
            rw [ho] at hok v1
            cases n with
            | zero => exact absurd rfl v1
            | succ n =>
              simp only [checkRet_neg _ (n + 1) (errno_le ho) (by omega)] at hok
              simp at hok
          | trap => exact absurd ho v2
          | killThread => rw [ho] at hok; simp [checkRet] at hok
          | killProcess => rw [ho] at hok; simp [checkRet] at hok
      simp only [syscall, hx] at hok
      rcases setSeccomp_mix a.env.seccompFault l a.v.toU32 t with ⟨g, _⟩ | ⟨g1, e, g2⟩
      · rw [g] at hok
        simp only [checkRet_zero, Prod.mk.injEq] at hok
        rw [← hok.1]
      · simp only [g2, checkRet_err] at hok
        simp at hok
  obtain ⟨l, hl, h4, hf⟩ := key
  obtain ⟨i, b, env, h3⟩ := hE
  have hlen := pidsOf_length l a.ps hl
  refine ⟨_, ⟨pidsOf l, tidsOf l, a.ps, a.v⟩, hf, mix_decides l a.ps a.v hl, rfl, rfl, ⟨i, b, env, a.q, h3⟩, hlen.1, hlen.2, ?_, ?_⟩
  · intro x hx
    obtain ⟨ids, hm, rfl⟩ := (mem_pidsOf _ _).1 hx
    exact ((h4 _ hm).1 rfl).imp id fun ⟨_, k, he⟩ => ⟨i, b, env, a.q, k, h3, he⟩
  · intro x hx
    obtain ⟨ids, hm, rfl⟩ := (mem_tidsOf _ _).1 hx
    exact ((h4 _ hm).2 rfl).imp id fun ⟨_, k, he⟩ => ⟨i, b, env, a.q, k, h3, he⟩

/-- C84, no way back: with violations as in `C84_true_ids`, a system call that is not executed for a thread at some point is not
executed for it, or for any thread or process it creates directly or indirectly, at any later point. -/
theorem C84_never_grow (s : System) (ms ms' : List Move) (hs : Fresh s) (ho : OnlyLibrary (ms ++ ms'))
    (hb : ∀ ps v, Called (ms ++ ms') ps v → ¬ Between v) (k : Nat) (sl : Busy) (hk : ((quiet s).run ms)[k]? = some sl)
    (d : SeccompData) (hd : enter sl.thread d ≠ .executed) (j : Nat) (hj : j ∈ scions ((quiet s).run ms) ms' [k]) (sl' : Busy)
    (hj' : ((quiet s).run (ms ++ ms'))[j]? = some sl') : enter sl'.thread d ≠ .executed := by
  have hmem : ∀ m ∈ ms, m ∈ ms ++ ms' := fun m hm => List.mem_append_left _ hm
  have hb1 : ∀ ps v, Called ms ps v → ¬ Between v := fun ps v ⟨i, b, env, q, hm⟩ => hb ps v ⟨i, b, env, q, hmem _ hm⟩
  have h := ran true s ms hs (fun m hm => ho m (hmem m hm)) (fun _ => hb1) sl (List.mem_of_getElem? hk)
  have hrun : (quiet s).run (ms ++ ms') = ((quiet s).run ms).run ms' := by simp [Wild.run]
  rw [hrun] at hj'
  have hg := scions_grown ms' ((quiet s).run ms) [k] sl.thread (by
      intro i hi u hu
      rw [List.mem_singleton.1 hi, hk] at hu
      cases hu
      exact .refl _) (by
      intro i hi
      rw [List.mem_singleton.1 hi]
      exact (List.getElem?_eq_some_iff.1 hk).1) j hj sl' hj'
  exact denied_suffix hg.1 (fun f hf => (h.filters f hf).sane (fun q ps v ⟨i, b, env, hm⟩ => hb1 ps v ⟨i, b, env, q, hm⟩)) d hd

/-- Steps a call still makes at most. -/
def left (a : Act) : Nat :=
  match a.phase with
  | .start => (allFilters a.ps).length + 3
  | .making _ rest _ => rest.length + 2
  | .armed _ => 1

theorem next_left (a a' : Act) (t t' : Thread) (h : a.next t = (t', .inl a')) : left a' < left a := by
  unfold Act.next at h
  cases hp : a.phase with
  | start =>
    simp only [hp, mapM_filters, Prod.mk.injEq, Sum.inl.injEq] at h
    rw [← h.2]
    simp only [left, hp, allFilters]
    omega
  | making k rest codes =>
    rw [hp] at h
    cases rest with
    | cons f rest =>
      simp only at h
      split at h <;> simp at h
      rw [← h.2]
      simp [left, hp]
    | nil =>
      simp only [bpfHeader_eq, bpfFooter_eq] at h
      split at h <;> simp at h
      rw [← h.2]
      simp [left, hp]
  | armed prog =>
    simp only [hp] at h
    split at h <;> simp at h

/-- C84, termination: a call of `pledge_override` takes at most three steps more than its promises have filters, however often it is
interrupted and whatever the handlers do. -/
theorem C84_ends (b : Build) (env : Env) (q : Nat → Query) (ps : List Promise) (v : SeccompReturn) (ts : Nat → Thread) :
    after ⟨b, env, q, ps, v, .start⟩ ts ((((.Default :: ps).map filtersOf).flatten).length + 3) = none := by
  have h : ∀ (a : Act) n, match after a ts n with | none => True | some a' => left a' + n ≤ left a := by
    intro a n
    induction n with
    | zero => simp [after]
    | succ n ih =>
      simp only [after]
      cases h1 : after a ts n with
      | none => simp
      | some a' =>
        rw [h1] at ih
        simp only at ih ⊢
        cases h2 : (a'.next (ts n)).2 with
        | inr r => simp
        | inl a'' =>
          have := next_left a' a'' (ts n) (a'.next (ts n)).1 (by rw [← h2])
          simp only
          omega
  have h0 : ∀ a : Act, 0 < left a := by intro a; unfold left; split <;> omega
  have := h ⟨b, env, q, ps, v, .start⟩ ((((.Default :: ps).map filtersOf).flatten).length + 3)
  split at this
  · assumption
  · rename_i a' _
    have := h0 a'
    simp only [left, allFilters] at *
    omega

/-- The bound is exact: without promises there is one filter, and the call is not over after three steps. -/
example (b : Build) : ((([.Default] : List Promise).map filtersOf).flatten).length = 1 ∧
    after ⟨b, calm, fun _ => ⟨0, fun _ => 0, 0⟩, [], .KillProcess, .start⟩ (fun _ => thread0) 3 ≠ none := by
  refine ⟨by decide, ?_⟩
  cases b with
  | mk c => cases c <;> decide +kernel

/-! ## A stale id -/

theorem enter_free (t : Thread) (ht : t.filters = []) (d : SeccompData) : enter t d = .executed := by
  simp only [enter, runFilters, ht, List.foldl_nil]; decide

theorem frag_free (b : Build) (handler : Bool) (t : Thread) (ht : t.filters = []) (q : Query) (f : Filtered) :
    (fragBy b handler t q f).2 = .ok (.ok (frag ⟨t.pid, t.tid⟩ f)) := by
  have he := enter_free t ht
  cases f <;> simp only [fragBy, he, filterToBpf_eq] <;> rfl

/-- A call left alone in a thread without filters generates fragment after fragment. -/
theorem go_many (i : Nat) (t : Thread) (ha : t.alive = true) (ht : t.filters = []) (b : Build) (env : Env) (q : Nat → Query)
    (ps : List Promise) (v : SeccompReturn) (acts : List Act) (line : List Ids) (fs rest : List Filtered) (w : Wild) (k : Nat)
    (codes : List (List SockFilter)) (hw : w[i]? = some ⟨t, ⟨b, env, q, ps, v, .making k (fs ++ rest) codes⟩ :: acts, line⟩) :
    w.run (List.replicate fs.length (.go i)) =
      w.set i ⟨t, ⟨b, env, q, ps, v, .making (k + fs.length) rest (codes ++ fs.map (frag ⟨t.pid, t.tid⟩))⟩ :: acts, line⟩ := by
  have hi : i < w.length := (List.getElem?_eq_some_iff.1 hw).1
  induction fs generalizing w k codes with
  | nil =>
    simp only [List.length_nil, List.replicate_zero, Wild.run, List.foldl_nil, List.map_nil, List.append_nil, List.nil_append,
      Nat.add_zero] at *
    apply List.ext_getElem?
    intro j
    rw [List.getElem?_set]
    split
    · rename_i hij
      subst hij
      exact hw
    · rfl
  | cons f fs ih =>
    have h1 : w.step (.go i) =
        w.set i ⟨t, ⟨b, env, q, ps, v, .making (k + 1) (fs ++ rest) (codes ++ [frag ⟨t.pid, t.tid⟩ f])⟩ :: acts, line⟩ := by
      have hfr := frag_free b env.handler t ht (q k) f
      simp only [Wild.step, hw, ha, if_true, Act.next, List.cons_append]
      rw [hfr]
    have h2 : w.run (List.replicate (f :: fs).length (.go i)) = (w.step (.go i)).run (List.replicate fs.length (.go i)) := by
      simp [Wild.run, List.replicate_succ]
    rw [h2, h1, ih _ (k + 1) (codes ++ [frag ⟨t.pid, t.tid⟩ f]) (by rw [List.getElem?_set]; simp [hi]) (by simpa using hi), List.set_set]
    simp [Nat.add_assoc, Nat.add_comm 1]

/-- The schedule: the only thread starts to pledge StdIO; after `A.length` filters a handler forks; the child goes on to the end. -/
def staleRun (q : Nat → Query) (n n' : Nat) : List Move :=
  [.enter 0 ⟨true⟩ calm q [.StdIO] .KillProcess, .go 0] ++ List.replicate n (.go 0) ++
    [.fork 0 (mkCall 57 []) none 101 101 true] ++ List.replicate n' (.go 1) ++ [.go 1]

theorem staleRun_eq (q : Nat → Query) (A B : List Filtered) (h : A ++ B = allFilters [.StdIO]) :
    ∃ prog, prog = mixProg (A.map (fun f => (⟨100, 100⟩, f)) ++ B.map (fun f => (⟨101, 101⟩, f))) (SeccompReturn.KillProcess).toU32 ∧
    ((quiet [thread0]).run (staleRun q A.length B.length))[1]? =
      some ⟨{ thread0 with pid := 101, tid := 101, nnp := true }, [⟨⟨true⟩, calm, q, [.StdIO], .KillProcess, .armed prog⟩],
        [⟨101, 101⟩, ⟨100, 100⟩]⟩ := by
  refine ⟨_, rfl, ?_⟩
  have e0 : (quiet [thread0]).run [.enter 0 ⟨true⟩ calm q [.StdIO] .KillProcess, .go 0] =
      [⟨thread0, [⟨⟨true⟩, calm, q, [.StdIO], .KillProcess, .making 0 (A ++ B) []⟩], [⟨100, 100⟩]⟩] := by
    rw [h]
    rfl
  have app : ∀ (w : Wild) (a c : List Move), w.run (a ++ c) = (w.run a).run c := by intro w a c; simp [Wild.run]
  unfold staleRun
  rw [app, app, app, app, e0, go_many 0 thread0 rfl rfl _ _ _ _ _ _ _ A B _ _ _ rfl]
  generalize hc : ([] ++ A.map (frag ⟨thread0.pid, thread0.tid⟩)) = codes
  have e1 : Wild.run (List.set [⟨thread0, [⟨⟨true⟩, calm, q, [.StdIO], .KillProcess, .making 0 (A ++ B) []⟩], [⟨100, 100⟩]⟩] 0
        ⟨thread0, [⟨⟨true⟩, calm, q, [.StdIO], .KillProcess, .making (0 + A.length) B codes⟩], [⟨100, 100⟩]⟩)
      [.fork 0 (mkCall 57 []) none 101 101 true] =
      [⟨thread0, [⟨⟨true⟩, calm, q, [.StdIO], .KillProcess, .making (0 + A.length) B codes⟩], [⟨100, 100⟩]⟩,
       ⟨{ thread0 with pid := 101, tid := 101 }, [⟨⟨true⟩, calm, q, [.StdIO], .KillProcess, .making (0 + A.length) B codes⟩],
        [⟨101, 101⟩, ⟨100, 100⟩]⟩] := by
    simp only [List.set_cons_zero, Wild.run, List.foldl_cons, List.foldl_nil, Wild.step, List.getElem?_cons_zero]
    rw [if_pos ⟨rfl, enter_free _ rfl _⟩]
    rfl
  rw [e1, go_many 1 { thread0 with pid := 101, tid := 101 } rfl rfl _ _ _ _ _ _ _ B [] _ _ _ (by rw [List.append_nil]; rfl)]
  have hp := mixProg_parts (A.map (fun f => ((⟨100, 100⟩ : Ids), f)) ++ B.map (fun f => (⟨101, 101⟩, f)))
    (SeccompReturn.KillProcess).toU32 _ _ rfl rfl
  rw [← hp, ← hc]
  simp only [List.set_cons_succ, List.set_cons_zero, Wild.run, List.foldl_cons, List.foldl_nil, Wild.step, List.getElem?_cons_succ,
    List.getElem?_cons_zero, Act.next, bpfHeader_eq, bpfFooter_eq]
  rw [if_pos (show thread0.alive = true from rfl)]
  simp only [syscall]
  rw [enter_free _ rfl]
  simp [setNnp, checkRet, calm, thread0, Function.comp_def]
  rfl

/-- The filters of StdIO up to and including the check of kill. -/
def untilKill : List Filtered := (allFilters [.StdIO]).take ((allFilters [.StdIO]).idxOf .KillSelf + 1)
def afterKill : List Filtered := (allFilters [.StdIO]).drop ((allFilters [.StdIO]).idxOf .KillSelf + 1)

theorem told_kill (p : Told) (hs : .StdIO ∈ p.ps) (hp : .Proc ∉ p.ps) (ht : p.tids ≠ []) (d : SeccompData) (h : IsCall d 62) :
    p.Allows d ↔ arg d 0 ∈ p.pids := by
  have key : ∀ ids, Allowed ids p.ps d ↔ arg d 0 = ids.pid := by
    intro ids
    rw [allowed_iff h.2 (by decide)]
    have hf : freeOf 62 = [.Proc] := by decide +kernel
    rw [hf]
    constructor
    · rintro ⟨x, hx, h1 | h1⟩
      · rw [List.mem_singleton.1 h1] at hx; exact absurd hx hp
      · exact h1.2
    · intro he
      exact ⟨.StdIO, hs, .inr ⟨rfl, he⟩⟩
  constructor
  · rintro ⟨pid, tid, h1, h2⟩
    rw [(key _).1 h2]
    exact (h1 hs).1
  · intro hm
    obtain ⟨t, ht⟩ := List.exists_mem_of_ne_nil _ ht
    exact ⟨_, t, fun _ => ⟨hm, ht⟩, (key _).2 rfl⟩

/-- C85: the ids need not be those of the thread that pledges. A signal handler forks while StdIO is being pledged; the pledge returns Ok in
the child, and the child may then send signals to its parent but not to itself. -/
theorem C85_stale_ids : ∃ (ms : List Move) (t t' : Thread) (a : Act) (line : List Ids),
    OnlyLibrary ms ∧ (∀ ps v, Called ms ps v → ps = [.StdIO] ∧ v = .KillProcess) ∧
    ((quiet [thread0]).run ms)[1]? = some ⟨t, [a], line⟩ ∧ t.alive = true ∧ a.next t = (t', .inr .ok) ∧ t'.pid = 101 ∧ t'.tid = 101 ∧
    enter t' (mkCall 62 [100, 9]) = .executed ∧ enter t' (mkCall 62 [101, 9]) = .killProcess ∧
    enter t' (mkCall 200 [101, 9]) = .executed ∧ (∀ i d h pid tid c, .fork i d h pid tid c ∈ ms → pid = 101 ∧ tid = 101) := by
  have hAB : untilKill ++ afterKill = allFilters [.StdIO] := List.take_append_drop _ _
  let q : Nat → Query := fun _ => ⟨0, fun _ => 0, 0⟩
  obtain ⟨prog, hprog, hrun⟩ := staleRun_eq q untilKill afterKill hAB
  generalize hl : (untilKill.map (fun f => ((⟨100, 100⟩ : Ids), f)) ++ afterKill.map (fun f => (⟨101, 101⟩, f))) = l at hprog
  have hsnd : l.map Prod.snd = allFilters [.StdIO] := by
    rw [← hl, ← hAB]
    simp [Function.comp_def]
  have hpids : pidsOf l = [100] := by rw [← hl]; decide +kernel
  have htids : tidsOf l = [101] := by rw [← hl]; decide +kernel
  have hlen : prog.length ≤ 4096 := by rw [hprog, ← hl]; decide +kernel
  have hacc : accepts prog = true := by
    have := accepts_mixProg l (SeccompReturn.KillProcess).toU32
    rw [← hprog] at this
    rw [this]
    exact decide_eq_true hlen
  have hdec := mix_decides l [.StdIO] .KillProcess hsnd
  rw [← hprog, hpids, htids] at hdec
  have hpos : prog.length ≠ 0 := by rw [hprog]; simp [mixProg]
  have fate : ∀ d, enter { thread0 with pid := 101, tid := 101, nnp := true, filters := [prog] } d =
      outcome (combine 0x7fff0000#32 [(Told.mk [100] [101] [.StdIO] .KillProcess).verdict d]) := by
    intro d
    unfold enter
    rw [runFilters_eq]
    simp only [List.map_cons, List.map_nil, decides_cur hdec]
  have hyes : ∀ d, d.arch = X86_64 → (Told.mk [100] [101] [.StdIO] .KillProcess).Allows d →
      (Told.mk [100] [101] [.StdIO] .KillProcess).verdict d = 0x7fff0000#32 := by
    intro d h1 h2
    unfold Told.verdict
    rw [if_neg (by simp [h1]), if_pos h2]
    rfl
  refine ⟨_, _, { thread0 with pid := 101, tid := 101, nnp := true, filters := [prog] }, _, _, ?_, ?_, hrun, rfl, ?_, rfl, rfl, ?_, ?_, ?_, ?_⟩
  · intro m hm i d h f p he
    subst he
    simp [staleRun] at hm
  · rintro ps v ⟨i, b, env, q', hm⟩
    simp [staleRun] at hm
    exact ⟨hm.2.2.2.2.1, hm.2.2.2.2.2⟩
  · simp only [Act.next, syscall]
    rw [enter_free _ rfl, List.take_of_length_le (by omega)]
    have h2 : ¬ (prog.length = 0 ∨ maxInsns < prog.length) := by unfold maxInsns; omega
    simp only [setSeccomp, calm, if_neg h2, hacc]
    simp [checkRet, thread0]
  · rw [fate, hyes _ rfl ((told_kill _ (by simp) (by simp) (by simp) _ ⟨rfl, rfl⟩).2 (by decide))]
    decide
  · have : ¬ (Told.mk [100] [101] [.StdIO] .KillProcess).Allows (mkCall 62 [101, 9]) := fun h =>
      absurd ((told_kill _ (by simp) (by simp) (by simp) _ ⟨rfl, rfl⟩).1 h) (by decide)
    have hv : (Told.mk [100] [101] [.StdIO] .KillProcess).verdict (mkCall 62 [101, 9]) = 0x80000000#32 := by
      unfold Told.verdict
      rw [if_neg (by simp [mkCall]), if_neg this]
      decide
    rw [fate, hv]
    decide
  · have : (Told.mk [100] [101] [.StdIO] .KillProcess).Allows (mkCall 200 [101, 9]) :=
      ⟨100, 101, fun _ => ⟨by simp, by simp⟩, (allowed_iff (n := 200) rfl (by decide) _).2 ⟨.StdIO, by simp, .inr ⟨rfl, by decide⟩⟩⟩
    rw [fate, hyes _ rfl this]
    decide
  · intro i d h pid tid c hm
    simp [staleRun] at hm
    exact ⟨hm.2.2.2.1, hm.2.2.2.2.1⟩

/-- A run that meets the hypotheses of C84, with a thread whose filter forbids something for ever. -/
example : ∃ (ms : List Move) (sl : Busy), Fresh [thread0] ∧ OnlyLibrary ms ∧
    (∀ ps v, Called ms ps v → ¬ Between v ∧ (.StdIO ∈ ps ∨ outcome v.toU32 ≠ .errno 0 ∧ outcome v.toU32 ≠ .trap)) ∧
    ((quiet [thread0]).run ms)[1]? = some sl ∧ sl.thread.filters ≠ [] ∧ enter sl.thread (mkCall 62 [101, 9]) ≠ .executed := by
  obtain ⟨ms, t, t', a, line, h1, h2, h3, h4, h5, _, _, _, h6, _⟩ := C85_stale_ids
  refine ⟨ms ++ [.go 1], ⟨t', [], line⟩, by intro t ht; rw [List.mem_singleton.1 ht]; rfl, ?_, ?_, ?_, ?_, ?_⟩
  · intro m hm i d h f p
    rcases List.mem_append.1 hm with hm | hm
    · exact h1 m hm i d h f p
    · rw [List.mem_singleton.1 hm]; simp
  · rintro ps v ⟨i, b, env, q, hm⟩
    rcases List.mem_append.1 hm with hm | hm
    · obtain ⟨rfl, rfl⟩ := h2 ps v ⟨i, b, env, q, hm⟩
      exact ⟨by rw [between_iff]; decide, .inl (by simp)⟩
    · simp at hm
  · have : (quiet [thread0]).run (ms ++ [.go 1]) = ((quiet [thread0]).run ms).step (.go 1) := by simp [Wild.run]
    have hl := (List.getElem?_eq_some_iff.1 h3).1
    rw [this]
    simp only [Wild.step, h3, h4, if_true, h5, PledgeRes.death]
    rw [List.getElem?_set]
    simp [hl]
  · intro h0
    simp only at h0
    rw [enter_free t' h0] at h6
    simp at h6
  · simp only [h6]
    simp

end Props
