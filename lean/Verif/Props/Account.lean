import Verif.Proofs.Account
import Verif.Props.Reduce

/-!
# C100: the simple accounts of `pledge_override` are runs of the full one

`Pledge.World`: threads with the calls they are in, the table of promises of each process and the hash keys of each thread (Model/Full).
`Pledge.pledgeMem`: a whole call with the system calls of the allocator (Model/Alloc). `Pledge.System`: threads for which a call is one
step (Model/Pledge). C93 and C96 say what the runs of the full model have to do with the simple ones; this is the other direction.
-/
set_option autoImplicit false

namespace Props
open Spec Pledge Bpfvm Kernel

theorem world_threads (c : World) (s : System) (hl : s.length = c.threads.length) : (c.withThreads s).threads = s := by
  have h : c.threads.length = c.hands.length := by simp [World.threads]
  rw [h] at hl
  clear h
  unfold World.withThreads World.threads
  simp only
  revert s
  induction c.hands with
  | nil => intro s hl; cases s <;> simp_all
  | cons w ws ih =>
    intro s hl
    cases s with
    | nil => simp at hl
    | cons t s =>
      simp only [List.zipWith_cons_cons, List.map_cons, List.cons.injEq, true_and]
      exact ih s (by simpa using hl)

theorem put_threads (c : World) (i : Nat) (w : Hand) : (World.put c i w).threads = c.threads.set i w.thread := by
  unfold World.put World.threads; rw [List.map_set]

theorem lose_threads (c : World) (i : Nat) (pid : BitVec 32) (o : Outcome) : (World.lose c i pid o).threads = reap c.threads i pid o :=
  world_threads _ _ (reap_length _ _ _ _)

theorem done_threads {c c' : World} {i : Nat} {w : Hand} {t : Thread} {e : Ending} (h : c.hands[i]? = some w) (ha : w.thread.alive = true)
    (hd : Done c i w t e c') : c'.threads = c.threads.on i (fun _ => (t, deathIn e)) ∧ c'.cells = c.cells := by
  unfold Done at hd
  simp only [System.on, world_threads_get h, ha, if_true]
  split at hd
  · rename_i o ho
    obtain ⟨es, rfl⟩ := hd
    rw [lose_threads, put_threads, ho]
    exact ⟨rfl, rfl⟩
  · rename_i ho
    subst hd
    rw [put_threads, ho]
    exact ⟨rfl, rfl⟩

/-- C100: a call with all its system calls, as `pledgeMem` tells it, is a run of the full model: the thread calls, and then does nothing but
steps of its own; whatever the allocator does, whatever the queries for the ids meet, and whatever the other threads are in the middle of.
The thread becomes what `pledgeMem` says, and it and its process die if `pledgeMem` says so. -/
theorem C100_call (c : World) (i : Nat) (w : Hand) (h : c.hands[i]? = some w) (ha : w.thread.alive = true) (hk : w.keys = true)
    (hc : c.cells[w.mem]? = some .ready) (b : Build) (env : Env) (q : Nat → Query) (seed : Seed) (ps : List Promise) (v : SeccompReturn)
    (mem : Nat → List MemCall) (drop : List MemCall) :
    let r := pledgeMem b env q mem drop w.thread ps v
    ∃ hs, (∀ m ∈ hs, OwnStep i env.handler (fun x => (∃ k, x ∈ mem k) ∨ x ∈ drop) m) ∧
      (c.run (.enter i b env q seed ps v :: hs)).threads = c.threads.on i (fun _ => (r.1, deathIn r.2)) ∧
      (c.run (.enter i b env q seed ps v :: hs)).cells = c.cells ∧
      (deathIn r.2 = none → (c.run (.enter i b env q seed ps v :: hs)).hands = c.hands.set i { w with thread := r.1 }) := by
  obtain ⟨hs, h1, h2⟩ := call_run h hk ha hc seed b env q ps v mem drop
  refine ⟨hs, h1, (done_threads h ha h2).1, (done_threads h ha h2).2, ?_⟩
  intro hn
  unfold Done at h2
  rw [hn] at h2
  rw [h2]; rfl

/-! ## histories -/

theorem atRest_dimmed {c c' : World} (h : AtRest c) (hd : Dimmed c c') : AtRest c' := by
  intro w' hw ha
  obtain ⟨k, hk⟩ := List.mem_iff_getElem?.1 hw
  obtain ⟨w, h1, h2, h3, h4, h5⟩ := hd.back k w' hk
  obtain ⟨g1, g2, g3⟩ := h w (List.mem_of_getElem? h1) (h5 ha)
  rw [h3, h4, h2, hd.cells]
  exact ⟨g1, g2, g3⟩

theorem reap_dead {s : System} {i : Nat} {t : Thread} {pid : BitVec 32} {o : Outcome} (h : s[i]? = some t) (hp : t.pid = pid) :
    ∀ t', (reap s i pid o)[i]? = some t' → t'.alive = false := by
  intro t' ht
  unfold reap at ht
  split at ht
  · rw [List.getElem?_modify, h] at ht
    simp at ht
    rw [← ht]
  · rw [List.getElem?_map, h] at ht
    simp [hp] at ht
    rw [← ht]

theorem done_rest {c c' : World} {i : Nat} {w : Hand} {t : Thread} {e : Ending} (hr : AtRest c) (h : c.hands[i]? = some w)
    (ha : w.thread.alive = true) (hp : t.pid = w.thread.pid) (hd : Done c i w t e c') : AtRest c' := by
  have hi := (List.getElem?_eq_some_iff.1 h).1
  obtain ⟨g1, g2, g3⟩ := hr w (List.mem_of_getElem? h) ha
  unfold Done at hd
  split at hd
  · rename_i o ho
    obtain ⟨es, rfl⟩ := hd
    intro w' hw ha'
    obtain ⟨k, hk⟩ := List.mem_iff_getElem?.1 hw
    have hdim := dimmed_reap (World.put c i { w with thread := t, errands := es }) i w.thread.pid o
    obtain ⟨u, h1, h2, h3, h4, h5⟩ := hdim.back k w' hk
    by_cases hki : k = i
    · subst hki
      have := reap_dead (o := o) (world_threads_get (put_get h { w with thread := t, errands := es })) hp w'.thread (by
        have h6 := world_threads_get hk
        rw [lose_threads] at h6
        exact h6)
      rw [this] at ha'; cases ha'
    · have h6 : c.hands[k]? = some u := by
        unfold World.put at h1
        simp only at h1
        rwa [List.getElem?_set_ne (Ne.symm hki)] at h1
      obtain ⟨f1, f2, f3⟩ := hr u (List.mem_of_getElem? h6) (h5 ha')
      rw [h3, h4, h2]
      exact ⟨f1, f2, f3⟩
  · subst hd
    intro w' hw ha'
    unfold World.put at hw
    rcases List.mem_or_eq_of_mem_set hw with hw | rfl
    · exact hr w' hw ha'
    · exact ⟨g1, g2, g3⟩

/-- The full model without allocator calls is the simple one. -/
theorem pledgeMem_none (b : Build) (env : Env) (q : Nat → Query) (t : Thread) (l : List Past) (hl : HasPledged t l) (ps : List Promise)
    (v : SeccompReturn) :
    pledgeMem b env q (fun _ => []) [] t ps v = ((pledgeOverride b env t ps v).1, .own (pledgeOverride b env t ps v).2) := by
  rw [← C78_as_if_asked_once b env q t l hl ps v, pledgeMem_plain b env q (fun _ => []) [] t ps v
    (fragsMem_served b env.handler t q (fun _ => []) (by simp) 0 (allFilters ps))]
  unfold leave
  split <;> simp_all [manage]

theorem step_account (c : World) (q : Nat → Query) (seed : Seed) (hr : AtRest c) (hp : ∀ t ∈ c.threads, ∃ l, HasPledged t l) (op : Op)
    (ho : ∀ i d h f p, op ≠ .setSeccomp i d h f p) :
    ∃ hs, (c.run hs).threads = c.threads.step op ∧ AtRest (c.run hs) ∧ callsIn hs = pledgesIn [op] := by
  cases op with
  | pledge i b env ps v =>
    cases h : c.hands[i]? with
    | none =>
      have ht : c.threads[i]? = none := by unfold World.threads; rw [List.getElem?_map, h]; rfl
      refine ⟨[.enter i b env q seed ps v], ?_, ?_, rfl⟩
      · simp [World.run, World.step, h, System.step, System.on, ht]
      · simpa [World.run, World.step, h] using hr
    | some w =>
      cases ha : w.thread.alive with
      | false =>
        refine ⟨[.enter i b env q seed ps v], ?_, ?_, rfl⟩
        · simp [World.run, World.step, h, System.step, System.on, world_threads_get h, ha]
        · simpa [World.run, World.step, h, ha] using hr
      | true =>
        obtain ⟨g1, g2, g3⟩ := hr w (List.mem_of_getElem? h) ha
        obtain ⟨l, hl⟩ := hp w.thread (List.mem_of_getElem? (world_threads_get h))
        obtain ⟨hs, h1, h2⟩ := call_run h g2 ha g3 seed b env q ps v (fun _ => []) []
        rw [pledgeMem_none b env q w.thread l hl ps v] at h2
        refine ⟨.enter i b env q seed ps v :: hs, ?_, done_rest hr h ha (pledge_ids b env w.thread ps v).1 h2, ?_⟩
        · rw [(done_threads h ha h2).1]
          simp only [System.step, System.on, world_threads_get h, ha, if_true]
          generalize (pledgeOverride b env w.thread ps v).2 = r
          cases r <;> rfl
        · have : callsIn hs = [] := by
            unfold callsIn
            rw [List.filterMap_eq_nil_iff]
            intro m hm
            rcases h1 m hm with rfl | ⟨_, _, _, rfl⟩ | rfl <;> rfl
          show callsIn ([.enter i b env q seed ps v] ++ hs) = _
          unfold callsIn at this ⊢
          rw [List.filterMap_append, this]; rfl
  | spawn i d hh pid tid =>
    refine ⟨[.fork i d hh pid tid], ?_, ?_, rfl⟩
    · show (c.step (.fork i d hh pid tid)).threads = _
      cases h : c.hands[i]? with
      | none =>
        have ht : c.threads[i]? = none := by unfold World.threads; rw [List.getElem?_map, h]; rfl
        simp only [World.step, h, System.step, ht]
      | some w =>
        simp only [World.step, h, System.step, world_threads_get h]
        split
        · unfold World.threads; simp
        · rw [world_threads _ _ (on_len _ _ _)]
    · show AtRest (c.step (.fork i d hh pid tid))
      cases h : c.hands[i]? with
      | none => simpa only [World.step, h] using hr
      | some w =>
        simp only [World.step, h]
        split
        · rename_i hx
          obtain ⟨g1, g2, g3⟩ := hr w (List.mem_of_getElem? h) hx.1
          intro w' hw ha'
          rcases List.mem_append.1 hw with hw | hw
          · obtain ⟨f1, f2, f3⟩ := hr w' hw ha'
            refine ⟨f1, f2, ?_⟩
            simp only
            rw [List.getElem?_append_left (List.getElem?_eq_some_iff.1 f3).1]
            exact f3
          · rw [List.mem_singleton.1 hw]
            refine ⟨g1, g2, ?_⟩
            simp [g3]
        · exact atRest_dimmed hr (dimmed_on _ _ _)
  | call i d hh =>
    exact ⟨[.other (.call i d hh)], world_threads _ _ (on_len _ _ _), atRest_dimmed hr (dimmed_on c i _), rfl⟩
  | setNnp i d hh fault =>
    exact ⟨[.other (.setNnp i d hh fault)], world_threads _ _ (on_len _ _ _), atRest_dimmed hr (dimmed_on c i _), rfl⟩
  | setSeccomp i d hh fault p => exact absurd rfl (ho i d hh fault p)
  | cred i a =>
    exact ⟨[.other (.cred i a)], world_threads c (c.threads.on i fun t => ({ t with admin := a }, none)) (on_len _ _ _),
      atRest_dimmed hr (dimmed_on c i fun t => ({ t with admin := a }, none)), rfl⟩
  | crash i whole =>
    exact ⟨[.other (.crash i whole)],
      world_threads c (c.threads.on i fun t => (t, some (if whole then .killProcess else .killThread))) (on_len _ _ _),
      atRest_dimmed hr (dimmed_on c i fun t => (t, some (if whole then .killProcess else .killThread))), rfl⟩

/-- C100: every history of the simple model, in which a call of `pledge_override` is one step and only the library installs filters, is a
run of the full model, with the same calls in the same order: the threads are the same in the end. This needs that nothing is in progress
when the history begins, that the tables of promises are made and that the threads have their hash keys (without those the first call can
end otherwise: C86). New threads are taken to have the keys of the thread that made them, as after fork. -/
theorem C100_history (c : World) (hr : AtRest c) (hf : Fresh c.threads) (ops : List Op) (ho : OnlyPledges ops) (q : Nat → Query)
    (seed : Seed) : ∃ hs, (c.run hs).threads = c.threads.run ops ∧ AtRest (c.run hs) ∧ callsIn hs = pledgesIn ops := by
  have hp : ∀ t ∈ c.threads, ∃ l, HasPledged t l := fun t ht => ⟨[], by rw [hasPledged_iff, hf t ht]; rfl⟩
  clear hf
  induction ops generalizing c with
  | nil => exact ⟨[], rfl, hr, rfl⟩
  | cons op ops ih =>
    obtain ⟨hs, h1, h2, h3⟩ := step_account c q seed hr hp op (ho op (by simp))
    have hp' : ∀ t ∈ (c.run hs).threads, ∃ l, HasPledged t l := by
      rw [h1]
      intro t ht
      obtain ⟨j, hj⟩ := List.mem_iff_getElem?.1 ht
      obtain ⟨l, hl, _⟩ := reachable_pledges (fun _ _ => True) [op] c.threads
        (fun j t hj => by
          obtain ⟨l, hl⟩ := hp t (List.mem_of_getElem? hj)
          exact ⟨l, hl, fun _ _ => trivial⟩)
        (fun o h => ho o (by rw [List.mem_singleton.1 h]; simp)) (fun _ _ _ _ _ _ => trivial) j t hj
      exact ⟨l, hl⟩
    obtain ⟨hs', g1, g2, g3⟩ := ih (c.run hs) h2 (fun o h => ho o (by simp [h])) hp'
    refine ⟨hs ++ hs', ?_, ?_, ?_⟩
    · rw [world_run_append, g1, h1]; rfl
    · rw [world_run_append]; exact g2
    · have : callsIn (hs ++ hs') = callsIn hs ++ callsIn hs' := by unfold callsIn; rw [List.filterMap_append]
      rw [this, h3, g3]
      show pledgesIn [op] ++ pledgesIn ops = pledgesIn ([op] ++ ops)
      unfold pledgesIn; rw [List.filterMap_append]

/-! ## the hypotheses can be met -/

/-- A process that has pledged nothing yet, with its table made (by a call that failed, say) and with hash keys. -/
def warm : World := ⟨[⟨thread0, 0, true, [], [⟨100, 100⟩]⟩], [.ready]⟩

/-- It makes a process, which pledges; then it pledges something else. -/
def warmOps : List Op :=
  [.spawn 0 (mkCall 57 []) none 200 200, .pledge 1 ⟨true⟩ calm [.StdIO] .KillProcess, .pledge 0 ⟨false⟩ calm [.StdIO, .Exec] .KillThread]

set_option maxRecDepth 100000 in
example : AtRest warm ∧ Fresh warm.threads ∧ OnlyPledges warmOps ∧
    ((warm.threads.run warmOps).map fun t => (t.filters.length, t.alive)) = [(1, true), (1, true)] := by
  refine ⟨fun w hw _ => ?_, fun t ht => ?_, fun op ho i d h f p he => ?_, by decide +kernel⟩
  · rw [List.mem_singleton.1 hw]; exact ⟨rfl, rfl, rfl⟩
  · rw [List.mem_singleton.1 ht]; rfl
  · subst he; simp [warmOps] at ho

/-- The hypotheses of `C100_call` are met by a thread of a world in which another thread is in the middle of a call; and a call in which
the thread dies of its own system calls, when it frees the program (C91), and the other thread with it, is such a run. -/
example (q : Nat → Query) (seed : Seed) : ∃ hs,
    ((World.run ⟨[⟨thread0, 0, true, [], [⟨100, 100⟩]⟩, ⟨thread0, 0, true, [⟨⟨⟨true⟩, calm, q, [.StdIO], .KillProcess, .start⟩, seed, .rest⟩], []⟩], [.ready]⟩
      (.enter 0 ⟨true⟩ calm q seed [.RPath] .KillProcess :: hs)).threads[1]?.map Thread.alive) = some false := by
  obtain ⟨hs, _, h, _⟩ := C100_call
    ⟨[⟨thread0, 0, true, [], [⟨100, 100⟩]⟩, ⟨thread0, 0, true, [⟨⟨⟨true⟩, calm, q, [.StdIO], .KillProcess, .start⟩, seed, .rest⟩], []⟩], [.ready]⟩ 0
    ⟨thread0, 0, true, [], [⟨100, 100⟩]⟩ rfl rfl rfl rfl ⟨true⟩ calm q seed [.RPath] .KillProcess (fun _ => [brkCall]) [brkCall]
  refine ⟨hs, ?_⟩
  have hl : HasPledged thread0 [] := rfl
  have hd := (C91_without_stdio_never_returns ⟨true⟩ calm q (fun _ => [brkCall]) brkCall [] thread0 [] hl (by simp) [.RPath] (by decide)
    (.inl ⟨rfl, rfl⟩) (fun k c hc => by
      rw [List.mem_singleton.1 hc]
      have he : enter thread0 brkCall.d = .executed := by decide
      unfold Served
      rw [he]
      rfl) (((C68_einval_iff ⟨true⟩ calm thread0 rfl [.RPath] .KillProcess rfl rfl).1).2 (by decide +kernel))).1
  rw [h, hd]
  generalize pledgeMem _ _ _ _ _ _ _ _ = r
  simp [System.on, World.threads, deathIn, reap, thread0]

end Props
