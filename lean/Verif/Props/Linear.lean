import Verif.Proofs.Linear
import Verif.Props.Signals

/-!
# C93: pledges are indivisible, even with signal handlers, unless a thread forks in the middle of one

Handlers run between any two steps of `pledge_override` and can do anything: system calls, further pledges, forks, jumps out of the
interrupted call.
-/
set_option autoImplicit false

namespace Props
open Bpfvm Kernel Pledge Spec

/-- C93: every run with signal handlers in which only the library installs filters and no thread that is inside `pledge_override` makes
a copy of itself has the same effect, on every thread, as a history in which each call of `pledge_override` that comes to an end is one
indivisible step, at the moment it ends, with the same result. (A call that has set no_new_privs and has not ended has done just that.) -/
theorem C93_indivisible (s : System) (ms : List Move) (hs : Fresh s) (ho : OnlyLibrary ms) (hf : NoFork (quiet s) ms) :
    ∃ ops, s.run ops = ((quiet s).run ms).threads ∧ results s ops = ends (quiet s) ms ∧ ∀ op ∈ ops, StandsFor ms op := by
  have hq : (quiet s).threads = s := by
    simp [quiet, Wild.threads, Function.comp_def]
  have := run_linear ms ms (w := quiet s) (by
    intro k sl hk
    obtain ⟨t, ht, rfl⟩ := List.mem_map.1 (List.mem_of_getElem? hk)
    refine ⟨⟨[], ?_⟩, by simp⟩
    unfold HasPledged
    rw [hs t ht]
    rfl) (fun _ h => h) ho hf
  rwa [hq] at this

theorem on_all {P : Thread → Prop} {s : System} {i : Nat} {f : Thread → Thread × Option Outcome}
    (hr : ∀ t, P t → P { t with alive := false }) (hf : ∀ t, P t → P (f t).1) (h : ∀ t ∈ s, P t) : ∀ t ∈ s.on i f, P t := by
  have hset : ∀ t, t ∈ s → ∀ u ∈ s.set i (f t).1, P u := by
    intro t ht u hu
    rcases List.mem_or_eq_of_mem_set hu with hu | rfl
    · exact h u hu
    · exact hf t (h t ht)
  unfold System.on
  split
  · rename_i t hi
    have ht := List.mem_of_getElem? hi
    split
    · split
      · intro u hu
        unfold reap at hu
        split at hu
        · obtain ⟨j, hj⟩ := List.getElem?_of_mem hu
          rw [List.getElem?_modify] at hj
          cases hx : (s.set i (f t).1)[j]? with
          | none => rw [hx] at hj; simp at hj
          | some u0 =>
            rw [hx] at hj
            have := hset t ht u0 (List.mem_of_getElem? hx)
            simp only [Option.map_eq_map, Option.map_some, Option.some.injEq] at hj
            rw [← hj]
            split
            · exact hr _ this
            · exact this
        · obtain ⟨u0, h0, rfl⟩ := List.mem_map.1 hu
          have := hset t ht u0 h0
          split
          · exact hr _ this
          · exact this
      · exact hset t ht
    · exact h
  · exact h

/-- C93, forks matter: a run in which a handler forks while its thread is inside `pledge_override` (the one of C85) has an effect that no
history of indivisible calls has, made of the same calls, forks and other operations. -/
theorem C93_fork_matters : ∃ ms, Fresh [thread0] ∧ OnlyLibrary ms ∧
    ¬ ∃ ops, System.run [thread0] ops = ((quiet [thread0]).run ms).threads ∧ ∀ op ∈ ops, StandsFor ms op := by
  obtain ⟨ms, t, t', a, line, h1, h2, h3, h4, h5, _, _, k1, k2, k3, k4⟩ := C85_stale_ids
  have mem : ∀ i b env q ps v, Move.enter i b env q ps v ∈ ms ++ [.go 1] → ps = [.StdIO] ∧ v = .KillProcess := by
    intro i b env q ps v hm
    rcases List.mem_append.1 hm with hm | hm
    · exact h2 ps v ⟨i, b, env, q, hm⟩
    · simp at hm
  refine ⟨ms ++ [.go 1], by intro t ht; rw [List.mem_singleton.1 ht]; rfl, ?_, ?_⟩
  · intro m hm i d h f p
    rcases List.mem_append.1 hm with hm | hm
    · exact h1 m hm i d h f p
    · rw [List.mem_singleton.1 hm]; simp
  · rintro ⟨ops, hrun, hops⟩
    -- in such a history the process and thread ids of all threads and all filters are equal
    let P : Thread → Prop := fun u => u.pid = u.tid ∧ ∃ l, HasPledged u l ∧
      ∀ p ∈ l, p.ids.pid = p.ids.tid ∧ p.ps = [.StdIO] ∧ p.v = .KillProcess
    have hP : ∀ u u' : Thread, P u → u'.pid = u.pid → u'.tid = u.tid → u'.filters = u.filters → P u' := by
      rintro u u' ⟨q1, l, q2, q3⟩ e1 e2 e3
      refine ⟨by rw [e1, e2]; exact q1, l, ?_, q3⟩
      unfold HasPledged at *
      rw [e3]
      exact q2
    have hr : ∀ u, P u → P { u with alive := false } := fun u hu => hP u _ hu rfl rfl rfl
    have inv : ∀ (ops : List Op) (s : System), (∀ op ∈ ops, StandsFor (ms ++ [.go 1]) op) → (∀ u ∈ s, P u) → ∀ u ∈ s.run ops, P u := by
      intro ops
      induction ops with
      | nil => intro s _ h; exact h
      | cons op ops ih =>
        intro s hops h
        refine ih (s.step op) (fun o ho => hops o (List.mem_cons_of_mem _ ho)) ?_
        have hop := hops op (by simp)
        cases op with
        | pledge i b env ps v =>
          refine on_all hr (fun u hu => ?_) h
          obtain ⟨env0, q, hm, _⟩ := hop
          obtain ⟨rfl, rfl⟩ := mem _ _ _ _ _ _ hm
          obtain ⟨q1, l, q2, q3⟩ := hu
          have base : P u := ⟨q1, l, q2, q3⟩
          simp only
          by_cases he : enter u (recNnp env) = .executed
          · rw [pledge_executed b env u _ _ l q2 he]
            repeat' split
            all_goals first
              | exact base
              | exact hP u _ base rfl rfl rfl
              | (refine ⟨q1, ⟨⟨u.pid, u.tid⟩, [.StdIO], .KillProcess⟩ :: l, ?_, ?_⟩
                 · rw [hasPledged_iff]
                   simp [(hasPledged_iff _ _).1 q2]
                 · intro p hp
                   rcases List.mem_cons.1 hp with rfl | hp
                   · exact ⟨q1, rfl, rfl⟩
                   · exact q3 p hp)
          · rw [pledge_not_executed b env u _ _ l q2 he]
            exact base
        | spawn i d h' pid tid =>
          obtain ⟨c, hm⟩ := hop
          have hid : pid = 101 ∧ tid = 101 := by
            rcases List.mem_append.1 hm with hm | hm
            · exact k4 _ _ _ _ _ _ hm
            · simp at hm
          simp only [System.step]
          split
          · rename_i u hi
            split
            · intro x hx
              rcases List.mem_append.1 hx with hx | hx
              · exact h x hx
              · rw [List.mem_singleton.1 hx]
                obtain ⟨_, l, q2, q3⟩ := h u (List.mem_of_getElem? hi)
                exact ⟨by simp [hid], l, q2, q3⟩
            · exact on_all hr (fun u hu => hu) h
          · exact h
        | call i d h' => exact on_all hr (fun u hu => hu) h
        | setNnp i d h' f =>
          refine on_all hr (fun u hu => ?_) h
          obtain ⟨e1, e2, e3, _⟩ := nnp_fields h' u d f
          exact hP u _ hu e1 e2 e3
        | setSeccomp i d h' f p =>
          exfalso
          rcases List.mem_append.1 hop with hm | hm
          · exact h1 _ hm i d h' f p rfl
          · simp at hm
        | cred i a => exact on_all (f := fun t => ({ t with admin := a }, none)) hr (fun u hu => hP u _ hu rfl rfl rfl) h
        | crash i w => exact on_all (f := fun t => (t, some (if w then .killProcess else .killThread))) hr (fun u hu => hu) h
    have h0 : ∀ u ∈ [thread0], P u := by
      intro u hu
      rw [List.mem_singleton.1 hu]
      exact ⟨rfl, [], rfl, by simp⟩
    have hend : ((quiet [thread0]).run (ms ++ [.go 1]))[1]? = some ⟨t', [], line⟩ := by
      have : (quiet [thread0]).run (ms ++ [.go 1]) = ((quiet [thread0]).run ms).step (.go 1) := by simp [Wild.run]
      have hl := (List.getElem?_eq_some_iff.1 h3).1
      rw [this]
      simp only [Wild.step, h3, h4, if_true, h5, PledgeRes.death]
      rw [List.getElem?_set]
      simp [hl]
    obtain ⟨_, l, q2, q3⟩ := inv ops _ hops h0 t' (by
      rw [hrun]
      exact List.mem_of_getElem? (threads_get hend))
    -- but then kill and tkill have the same fate
    have same : enter t' (mkCall 62 [101, 9]) = enter t' (mkCall 200 [101, 9]) := by
      unfold enter
      rw [runFilters_pledged q2, runFilters_pledged q2]
      congr 2
      apply List.map_congr_left
      intro p hp
      obtain ⟨e1, e2, e3⟩ := q3 p hp
      refine verdict_congr rfl ?_
      rw [e2, allowed_iff (n := 62) rfl (by decide), allowed_iff (n := 200) rfl (by decide)]
      have f1 : freeOf 62 = [.Proc] := by decide +kernel
      have f2 : freeOf 200 = [.Proc] := by decide +kernel
      rw [f1, f2]
      simp only [List.mem_singleton, exists_eq_left, reduceCtorEq, false_or]
      show (_ ∧ _ = p.ids.pid) ↔ (_ ∧ _ = p.ids.tid)
      rw [e1]
      exact Iff.rfl
    rw [k2, k3] at same
    cases same

/-- A run that meets the hypotheses: a handler interrupts a pledge after ten of its steps, pledges itself, with Ok, and later
jumps out of the interrupted call; at the same time another thread pledges. -/
def nestedRun (q : Nat → Query) : List Move :=
  [.enter 0 ⟨true⟩ calm q [.StdIO] .KillProcess] ++ List.replicate 10 (.go 0) ++ [.enter 1 ⟨true⟩ calm q [] .KillThread, .go 1] ++
    [.enter 0 ⟨true⟩ calm q [.StdIO, .Inet] (.Errno 1)] ++ List.replicate 200 (.go 0) ++ [.leave 0] ++ List.replicate 10 (.go 1)

def noQuery : Nat → Query := fun _ => ⟨0, fun _ => 0, 0⟩

example : Fresh [thread0, { thread0 with tid := 101 }] ∧ OnlyLibrary (nestedRun noQuery) ∧
    NoFork (quiet [thread0, { thread0 with tid := 101 }]) (nestedRun noQuery) ∧
    (ends (quiet [thread0, { thread0 with tid := 101 }]) (nestedRun noQuery)).map (fun e => (e.i, e.ps, decide (e.r = .ok))) =
      [(0, [.StdIO, .Inet], true), (1, [], true)] := by
  have mem : ∀ m ∈ nestedRun noQuery, (∃ i b env ps v, m = .enter i b env noQuery ps v) ∨ (∃ i, m = .go i) ∨ ∃ i, m = .leave i := by
    intro m hm
    simp only [nestedRun, List.mem_append, List.mem_cons, List.mem_replicate, List.not_mem_nil, or_false] at hm
    rcases hm with (((((hm | hm) | hm | hm) | hm) | hm) | hm) | hm
    all_goals first
      | exact .inl ⟨_, _, _, _, _, hm⟩
      | exact .inr (.inl ⟨_, hm.2⟩)
      | exact .inr (.inl ⟨_, hm⟩)
      | exact .inr (.inr ⟨_, hm⟩)
  refine ⟨by intro t ht; simp at ht; rcases ht with rfl | rfl <;> rfl, ?_, ?_, by decide +kernel⟩
  · intro m hm i d h f p he
    rcases mem m hm with ⟨_, _, _, _, _, h⟩ | ⟨_, h⟩ | ⟨_, h⟩ <;> rw [he] at h <;> cases h
  · have free : ∀ (ms : List Move), (∀ i d h pid tid, Move.fork i d h pid tid true ∉ ms) → ∀ w, NoFork w ms := by
      intro ms
      induction ms with
      | nil => intros; trivial
      | cons m ms ih =>
        intro h w
        refine ⟨?_, ih (fun i d h' pid tid hm => h i d h' pid tid (List.mem_cons_of_mem _ hm)) _⟩
        split
        · rename_i i d h' pid tid
          exact absurd (by simp) (h i d h' pid tid)
        · trivial
    refine free _ (fun i d h pid tid hm => ?_) _
    rcases mem _ hm with ⟨_, _, _, _, _, h⟩ | ⟨_, h⟩ | ⟨_, h⟩ <;> cases h

end Props
