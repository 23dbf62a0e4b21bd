import Verif.Proofs.InitRun
import Verif.Props.Signals

/-!
# C86–C88: hash keys and the one-time initialisation of the promise table
-/
set_option autoImplicit false

namespace Props
open Bpfvm Kernel Pledge Spec

/-! ## C86 -/

/-- `getrandom` is permitted by StdIO, like the calls of the library itself. -/
theorem verdict_getrandom (ids : Ids) (ps : List Promise) (v : BitVec 32) (env : Env) (s : Seed) :
    verdict ids ps v s.getrandom = verdict ids ps v (recNnp env) := by
  classical
  rw [verdict_own ids ps v env _ (.inr (.inr (.inl rfl)))]
  have key : Allowed ids ps s.getrandom ↔ .StdIO ∈ ps := by
    rw [allowed_iff (n := 318) rfl (by decide)]
    have hf : freeOf 318 = [.StdIO] := by decide +kernel
    simp [hf, ruleAt]
  by_cases h : .StdIO ∈ ps
  · rw [if_pos h, verdict_allowed rfl (key.2 h)]; rfl
  · rw [if_neg h, verdict_denied rfl (fun h' => h (key.1 h'))]

/-- C86: the request for hash keys meets the same fate as the library's own system calls. -/
theorem C86_same_fate (t : Thread) (l : List Past) (hl : HasPledged t l) (env : Env) (s : Seed) :
    enter t s.getrandom = enter t (recNnp env) := by
  unfold enter
  rw [runFilters_pledged hl, runFilters_pledged hl]
  congr 2
  apply List.map_congr_left
  intro p _
  exact verdict_getrandom _ _ _ _ _

/-- Not vacuous: a thread that pledged nothing with `Errno(1)`. -/
example := C86_same_fate ({ thread0 with nnp := true, filters := [progOf ⟨100, 100⟩ [] (.Errno 1 : SeccompReturn).toU32] }) [⟨⟨100, 100⟩, [], .Errno 1⟩] ((hasPledged_iff _ _).2 rfl) calm

/-- C86: if the library's calls are executed then hash keys make no difference. -/
theorem C86_executed (b : Build) (env : Env) (s : Seed) (keys : Bool) (t : Thread) (l : List Past) (hl : HasPledged t l)
    (ps : List Promise) (v : SeccompReturn) (he : enter t (recNnp env) = .executed) :
    pledgeKeyed b env s keys t ps v = pledgeOverride b env t ps v := by
  unfold pledgeKeyed askKeys
  rw [C86_same_fate t l hl env s, he]
  cases keys <;> rfl

/-- How a first pledge of a thread ends whose library calls are refused. -/
def keylessResult (env : Env) (s : Seed) : Outcome → PledgeRes
  | .errno n =>
    match s.fallback with
    | .recovers => refusedResult env (.errno n)
    | .panics => .panic
    | .dies o => .died o
  | .trap =>
    if env.handler then
      match s.fallback with
      | .recovers => refusedResult env .trap
      | .panics => .panic
      | .dies o => .died o
    else .died .trap
  | o => refusedResult env o

/-- C86: if they are refused, nothing changes, as without the request; but the thread may panic or die where an error would be
returned, namely when the standard library finds no other random bytes. -/
theorem C86_refused (b : Build) (env : Env) (s : Seed) (t : Thread) (l : List Past) (hl : HasPledged t l)
    (ps : List Promise) (v : SeccompReturn) (he : enter t (recNnp env) ≠ .executed) :
    pledgeKeyed b env s false t ps v = (t, keylessResult env s (enter t (recNnp env))) := by
  have hr := C64_refused b env t ps v l hl he
  unfold pledgeKeyed askKeys
  rw [C86_same_fate t l hl env s, hr]
  cases ho : enter t (recNnp env) with
  | executed => exact absurd ho he
  | errno n => cases hs : s.fallback <;> simp [keylessResult, hs]
  | trap => cases hh : env.handler <;> cases hs : s.fallback <;> simp [keylessResult, hs, hh]
  | killThread => simp [keylessResult, refusedResult]
  | killProcess => simp [keylessResult, refusedResult]

/-- C86: the thread state after a pledge does not depend on the hash keys, and an `Ok` is the same `Ok`. -/
theorem C86_same_effect (b : Build) (env : Env) (s : Seed) (keys : Bool) (t : Thread) (l : List Past) (hl : HasPledged t l)
    (ps : List Promise) (v : SeccompReturn) :
    (pledgeKeyed b env s keys t ps v).1 = (pledgeOverride b env t ps v).1 ∧
    ((pledgeKeyed b env s keys t ps v).2 = .ok → (pledgeOverride b env t ps v).2 = .ok) := by
  by_cases he : enter t (recNnp env) = .executed
  · rw [C86_executed b env s keys t l hl ps v he]
    exact ⟨rfl, id⟩
  · cases keys with
    | true => exact ⟨rfl, id⟩
    | false =>
      rw [C86_refused b env s t l hl ps v he, C64_refused b env t ps v l hl he]
      refine ⟨rfl, fun h => ?_⟩
      simp only at h ⊢
      cases ho : enter t (recNnp env) with
      | executed => exact absurd ho he
      | errno n => rw [ho] at h; cases hs : s.fallback <;> simp only [keylessResult, hs] at h <;> first | exact h | cases h
      | trap =>
        rw [ho] at h
        cases hh : env.handler <;> cases hs : s.fallback <;>
          simp only [keylessResult, hs, hh, if_true, Bool.false_eq_true, if_false] at h <;> first | exact h | cases h
      | killThread => rw [ho] at h; exact h
      | killProcess => rw [ho] at h; exact h

/-- An earlier pledge of nothing with `Errno(1)`: with hash keys the next pledge returns the error, without it may panic. -/
example (b : Build) (s : Seed) (hs : s.fallback = .panics) (t : Thread) (hl : HasPledged t [⟨⟨100, 100⟩, [], .Errno 1⟩]) :
    (pledgeKeyed b calm s true t [.StdIO] .KillProcess).2 = .err (.SysErr 1) ∧
    (pledgeKeyed b calm s false t [.StdIO] .KillProcess).2 = .panic := by
  have he : enter t (recNnp calm) = .errno 1 := by
    unfold enter
    rw [runFilters_pledged hl]
    simp only [List.map_cons, List.map_nil]
    rw [verdict_own _ _ _ calm _ (.inr (.inr (.inl rfl)))]
    decide
  have hne : enter t (recNnp calm) ≠ .executed := by rw [he]; simp
  constructor
  · show (pledgeOverride b calm t [.StdIO] .KillProcess).2 = _
    rw [C64_refused b calm t _ _ _ hl hne, he]
    rfl
  · rw [C86_refused b calm s t _ hl _ _ hne, he]
    simp [keylessResult, hs]
example : HasPledged { thread0 with nnp := true, filters := [progOf ⟨100, 100⟩ [] (SeccompReturn.Errno 1).toU32] }
    [⟨⟨100, 100⟩, [], .Errno 1⟩] := (hasPledged_iff _ _).2 rfl

/-! ## C87 -/

theorem run_run (c : Crew) (a b : List Turn) : c.run (a ++ b) = (c.run a).run b := by simp [Crew.run]

/-- C87: once the table of a memory is marked as being made and nobody makes it, it stays so whatever happens, and a call that waits
for it never gets on: as long as its thread lives, the call is in progress. -/
theorem C87_stuck_forever (c : Crew) (hu : Unused c) (ms : List Turn) (m : Nat) (ho : Orphaned (c.run ms) m)
    (i : Nat) (w : Worker) (f : Frame) (rest : List Frame) (hi : (c.run ms).workers[i]? = some w) (hm : w.mem = m)
    (hf : w.frames = f :: rest) (hp : f.place = .table) (more : List Turn) :
    Orphaned ((c.run ms).run more) m ∧
    ∃ w', ((c.run ms).run more).workers[i]? = some w' ∧
      (w'.thread.alive = false ∨ w'.mem = m ∧ ∃ pre, w'.frames = pre ++ f :: rest) := by
  have key : ∀ (more : List Turn) (c : Crew), Sane c → Orphaned c m → Waits c m i f rest →
      Orphaned (c.run more) m ∧ Waits (c.run more) m i f rest := by
    intro more
    induction more with
    | nil => intro c _ h1 h2; exact ⟨h1, h2⟩
    | cons t more ih =>
      intro c hs h1 h2
      have hsh := step_shape hs t
      exact ih (c.step t) (sane_step hs t) (orphan_shape hs hsh h1)
        (waits_shape hp hsh h1 h2)
  obtain ⟨h1, w', h2, h3⟩ := key more (c.run ms) (sane_run (sane_unused hu) ms) ho
    ⟨w, hi, .inr ⟨hm, [], by simp, by simpa using hf⟩⟩
  refine ⟨h1, w', h2, ?_⟩
  rcases h3 with h3 | ⟨h3, pre, _, h4⟩
  · exact .inl h3
  · exact .inr ⟨h3, pre, h4⟩

/-- Two threads of one process that have not pledged, and may fork. -/
def pair (a b : Thread) (k k' : Bool) : Crew := ⟨[⟨a, 0, k, []⟩, ⟨b, 0, k', []⟩], [.idle]⟩

/-- C87: if one thread forks while another one is in its first pledge, then a pledge in the child waits for a table that nobody makes. -/
theorem C87_fork_hangs (a b : Thread) (k k' : Bool) (first second : Call) (d : SeccompData) (h : Option Int) (pid tid : BitVec 32)
    (ha : a.alive = true) (hb : b.alive = true) (hd : Kernel.enter b d = .executed) :
    Unused (pair a b k k') ∧
    Orphaned ((pair a b k k').run [.enter 0 first, .go 0, .fork 1 d h pid tid, .enter 2 second]) 1 ∧
    ((pair a b k k').run [.enter 0 first, .go 0, .fork 1 d h pid tid, .enter 2 second]).workers[2]? =
      some ⟨{ b with pid := pid, tid := tid }, 1, k', [⟨second, .table⟩]⟩ := by
  have e : (pair a b k k').run [.enter 0 first, .go 0, .fork 1 d h pid tid, .enter 2 second] =
      ⟨[⟨a, 0, k, [⟨first, .init⟩]⟩, ⟨b, 0, k', []⟩, ⟨{ b with pid := pid, tid := tid }, 1, k', [⟨second, .table⟩]⟩],
        [.running, .running]⟩ := by
    simp [Crew.run, Crew.step, pair, Crew.advance, Worker.moved, ha, hb, hd]
  rw [e]
  refine ⟨⟨?_, ?_⟩, ⟨rfl, ?_⟩, rfl⟩
  · intro w hw
    simp only [pair, List.mem_cons, List.not_mem_nil, or_false] at hw
    rcases hw with rfl | rfl <;> exact ⟨rfl, by simp [pair]⟩
  · intro x hx
    simpa [pair] using hx
  · intro w hw hm
    simp only [List.mem_cons, List.not_mem_nil, or_false] at hw
    rcases hw with rfl | rfl | rfl
    · cases hm
    · cases hm
    · rintro ⟨_, f, hf, hp⟩
      cases hf
      cases hp

/-- C87: and so in the same process if the thread in its first pledge is ended at that point and another thread pledges. -/
theorem C87_kill_hangs (a b : Thread) (k k' : Bool) (first second : Call) (ha : a.alive = true) (hb : b.alive = true) :
    Orphaned ((pair a b k k').run [.enter 0 first, .go 0, .other (.crash 0 false), .enter 1 second]) 0 ∧
    ((pair a b k k').run [.enter 0 first, .go 0, .other (.crash 0 false), .enter 1 second]).workers[1]? =
      some ⟨b, 0, k', [⟨second, .table⟩]⟩ := by
  have e : (pair a b k k').run [.enter 0 first, .go 0, .other (.crash 0 false), .enter 1 second] =
      ⟨[⟨{ a with alive := false }, 0, k, [⟨first, .init⟩]⟩, ⟨b, 0, k', [⟨second, .table⟩]⟩], [.running]⟩ := by
    simp [Crew.run, Crew.step, pair, Crew.advance, Worker.moved, ha, hb, Crew.withThreads, Crew.threads, System.step, System.on, reap]
  rw [e]
  refine ⟨⟨rfl, ?_⟩, rfl⟩
  intro w hw hm
  simp only [List.mem_cons, List.not_mem_nil, or_false] at hw
  rcases hw with rfl | rfl
  · rintro ⟨hx, _⟩; cases hx
  · rintro ⟨_, f, hf, hp⟩; cases hf; cases hp

/-- Not vacuous: two threads of a process. -/
example (first second : Call) := C87_kill_hangs thread0 { thread0 with tid := 101 } true true first second rfl rfl

/-- C87: and so in a single thread if a signal handler pledges at that point. -/
theorem C87_handler_hangs (a b : Thread) (k k' : Bool) (first second : Call) (ha : a.alive = true) :
    Orphaned ((pair a b k k').run [.enter 0 first, .go 0, .enter 0 second]) 0 ∧
    ((pair a b k k').run [.enter 0 first, .go 0, .enter 0 second]).workers[0]? =
      some ⟨a, 0, k, [⟨second, .table⟩, ⟨first, .init⟩]⟩ := by
  have e : (pair a b k k').run [.enter 0 first, .go 0, .enter 0 second] =
      ⟨[⟨a, 0, k, [⟨second, .table⟩, ⟨first, .init⟩]⟩, ⟨b, 0, k', []⟩], [.running]⟩ := by
    simp [Crew.run, Crew.step, pair, Crew.advance, Worker.moved, ha]
  rw [e]
  refine ⟨⟨rfl, ?_⟩, rfl⟩
  intro w hw hm
  simp only [List.mem_cons, List.not_mem_nil, or_false] at hw
  rcases hw with rfl | rfl
  · rintro ⟨_, f, hf, hp⟩; cases hf; cases hp
  · rintro ⟨_, f, hf, _⟩; cases hf

/-- The hanging child: after any continuation it is dead (its process may have replaced its program) or is still in its pledge. -/
example (first second : Call) (more : List Turn) :
    ∃ w', ((((pair thread0 { thread0 with tid := 101 } true true).run
        [.enter 0 first, .go 0, .fork 1 (mkCall 57 []) none 200 200, .enter 2 second]).run more).workers[2]? = some w') ∧
      (w'.thread.alive = false ∨ w'.mem = 1 ∧ ∃ pre, w'.frames = pre ++ [⟨second, .table⟩]) := by
  obtain ⟨h1, h2, h3⟩ := C87_fork_hangs thread0 { thread0 with tid := 101 } true true first second (mkCall 57 []) none 200 200 rfl rfl
    (enter_free _ rfl _)
  exact (C87_stuck_forever _ h1 _ 1 h2 2 _ ⟨second, .table⟩ [] h3 rfl rfl rfl more).2

/-- C87: these are the only ways. If no thread is cut off while it makes the table (no handler pledging in it, no fork by another
thread of its process, not dying alone), then no memory that a living thread uses has a table being made by nobody. -/
theorem C87_only_cuts (c : Crew) (hu : Unused c) (ms : List Turn) (hc : Uncut c ms) (m : Nat)
    (hm : ∃ w ∈ (c.run ms).workers, w.mem = m ∧ w.thread.alive = true) : ¬ Orphaned (c.run ms) m := by
  intro ho
  obtain ⟨j, w, h1, h2, h3⟩ := live_run (sane_unused hu) (live_unused hu) ms hc m ho.1 hm
  exact ho.2 w (List.mem_of_getElem? h1) h2 h3

/-- C87: and then every call of every living thread can end: with at most four more steps, of its own or of the thread that makes the
table, the call is over or the thread is dead. -/
theorem C87_returns (c : Crew) (hu : Unused c) (ms : List Turn) (hc : Uncut c ms) (hn : ∀ k, ¬ Cut (c.run ms) (.go k))
    (i : Nat) (w : Worker) (f : Frame) (rest : List Frame) (hi : (c.run ms).workers[i]? = some w) (ha : w.thread.alive = true)
    (hf : w.frames = f :: rest) :
    ∃ ts : List Turn, ts.length ≤ 4 ∧ (∀ t ∈ ts, ∃ k, t = .go k) ∧
      ∃ u, ((c.run ms).run ts).workers[i]? = some u ∧ (u.thread.alive = false ∨ u.frames = rest) :=
  progress (sane_run (sane_unused hu) ms) (live_run (sane_unused hu) (live_unused hu) ms hc) hn hi ha hf

/-- Two threads pledge at once: the second waits for the first. No cut. -/
example (first second : Call) : Uncut (pair thread0 { thread0 with tid := 101 } true true) [.enter 0 first, .enter 1 second, .go 1] ∧
    (∀ k, ¬ Cut ((pair thread0 { thread0 with tid := 101 } true true).run [.enter 0 first, .enter 1 second, .go 1]) (.go k)) := by
  have e1 : (pair thread0 { thread0 with tid := 101 } true true).step (.enter 0 first) =
      ⟨[⟨thread0, 0, true, [⟨first, .table⟩]⟩, ⟨{ thread0 with tid := 101 }, 0, true, []⟩], [.idle]⟩ := rfl
  have e2 : (⟨[⟨thread0, 0, true, [⟨first, .table⟩]⟩, ⟨{ thread0 with tid := 101 }, 0, true, []⟩], [.idle]⟩ : Crew).step (.enter 1 second) =
      ⟨[⟨thread0, 0, true, [⟨first, .table⟩]⟩, ⟨{ thread0 with tid := 101 }, 0, true, [⟨second, .table⟩]⟩], [.idle]⟩ := rfl
  have e3 : (⟨[⟨thread0, 0, true, [⟨first, .table⟩]⟩, ⟨{ thread0 with tid := 101 }, 0, true, [⟨second, .table⟩]⟩], [.idle]⟩ : Crew).step (.go 1) =
      ⟨[⟨thread0, 0, true, [⟨first, .table⟩]⟩, ⟨{ thread0 with tid := 101 }, 0, true, [⟨second, .init⟩]⟩], [.running]⟩ := rfl
  have nm : ∀ (c : Crew) (t : Turn), (∀ w ∈ c.workers, ¬ MakesTable w) → ¬ Cut c t := by
    rintro c t h ⟨j, w, h1, h2, _⟩
    exact h w (List.mem_of_getElem? h1) h2
  refine ⟨⟨nm _ _ ?_, nm _ _ ?_, nm _ _ ?_, trivial⟩, ?_⟩
  · intro w hw
    simp only [pair, List.mem_cons, List.not_mem_nil, or_false] at hw
    rcases hw with rfl | rfl <;> (rintro ⟨_, f, hf, hp⟩; cases hf)
  · rw [e1]
    intro w hw
    simp only [List.mem_cons, List.not_mem_nil, or_false] at hw
    rcases hw with rfl | rfl <;> (rintro ⟨_, f, hf, hp⟩; cases hf <;> cases hp)
  · rw [e1, e2]
    intro w hw
    simp only [List.mem_cons, List.not_mem_nil, or_false] at hw
    rcases hw with rfl | rfl <;> (rintro ⟨_, f, hf, hp⟩; cases hf <;> cases hp)
  · intro k
    show ¬ Cut (((((pair thread0 { thread0 with tid := 101 } true true).step (.enter 0 first)).step (.enter 1 second)).step (.go 1))) (.go k)
    rw [e1, e2, e3]
    rintro ⟨j, w, h1, h2, h3⟩
    have hj : j = 1 := by
      match j, h1 with
      | 0, h1 => cases h1; obtain ⟨_, f, hf, hp⟩ := h2; cases hf; cases hp
      | 1, _ => rfl
      | n + 2, h1 => cases h1
    subst hj
    rcases h3 with ⟨_, h⟩ | ⟨_, _, _, _, _, _, h, _⟩ | ⟨h, _⟩
    · cases h
    · cases h
    · match k, h with
      | 0, h => exact Bool.noConfusion (show true = false from h _ rfl)
      | 1, h => exact Bool.noConfusion (show true = false from h _ rfl)
      | n + 2, h => exact Bool.noConfusion (show true = false from h _ rfl)

/-! ## C88 -/

/-- C88: whatever waiting, hash keys, handlers and forks in the middle of an initialisation do, the thread states are those of a
history in which each call of `pledge_override` is one step; every pledge of that history was called in the run, by the same thread or
by an ancestor that forked after calling it, and everything else the history does is in the run too, except that threads may die. So
what is proved of histories holds for such runs. -/
theorem C88_history (c : Crew) (hu : Unused c) (ms : List Turn) :
    ∃ ops : List Op, (c.run ms).threads = c.threads.run ops ∧ ∀ op ∈ ops, Explained c ms op :=
  (run_ops c hu ms).2.2

/-- C88, used: if no thread had a filter at first and only the library installs filters, then at every moment the filters of each
thread are exactly those of pledges whose promises and violations were passed to calls in the run. -/
theorem C88_filters (c : Crew) (hu : Unused c) (hf : ∀ w ∈ c.workers, w.thread.filters = []) (ms : List Turn)
    (ho : ∀ i d h f p, .other (.setSeccomp i d h f p) ∉ ms) (k : Nat) (w : Worker) (hk : (c.run ms).workers[k]? = some w) :
    ∃ l, HasPledged w.thread l ∧ ∀ p ∈ l, ∃ j b env seed, .enter j ⟨b, env, seed, p.ps, p.v⟩ ∈ ms := by
  obtain ⟨ops, h1, h2⟩ := C88_history c hu ms
  refine reachable_pledges (fun ps v => ∃ j b env seed, .enter j ⟨b, env, seed, ps, v⟩ ∈ ms) ops c.threads
    (fun j t h => ⟨[], ?_, fun _ h => (by cases h)⟩) ?_ ?_ k w.thread ?_
  · rw [hasPledged_iff]
    rw [Spec.threads_get] at h
    cases hw : c.workers[j]? with
    | none => rw [hw] at h; cases h
    | some w0 => rw [hw] at h; cases h; rw [hf w0 (List.mem_of_getElem? hw)]; rfl
  · rintro op hop i d h f p rfl
    exact ho i d h f p (h2 _ hop)
  · intro i b env ps v hop
    obtain ⟨seed, j, before, after, rfl, _⟩ := h2 _ hop
    exact ⟨j, b, env, seed, by simp⟩
  · rw [← h1, Spec.threads_get, hk]; rfl

/-- One thread, one call, left alone: four steps, and the thread state is that of `pledge_override`. -/
example (t : Thread) (ha : t.alive = true) (keys : Bool) (call : Call) (hd : ∀ s, Kernel.enter t (Seed.getrandom s) = .executed)
    (hok : (pledgeOverride call.b call.env t call.ps call.v).2 = .ok) :
    Unused ⟨[⟨t, 0, keys, []⟩], [.idle]⟩ ∧
    (Crew.run ⟨[⟨t, 0, keys, []⟩], [.idle]⟩ [.enter 0 call, .go 0, .go 0, .go 0, .go 0]) =
      ⟨[⟨(pledgeOverride call.b call.env t call.ps call.v).1, 0, true, []⟩], [.ready]⟩ := by
  constructor
  · constructor
    · intro w hw
      cases List.mem_singleton.1 hw
      exact ⟨rfl, by simp⟩
    · intro x hx
      exact List.mem_singleton.1 hx
  · have hk : askKeys call.env.handler t call.seed = .ok () := by simp [askKeys, hd]
    cases keys <;> simp [Crew.run, Crew.step, Crew.advance, Worker.moved, ha, hk, Crew.ends, hok, PledgeRes.death]

end Props
