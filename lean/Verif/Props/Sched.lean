import Verif.Proofs.Sched
import Verif.Props.Install

/-!
# C59, C60: every schedule and every crash point

The two prctl calls, and the id queries before them, are separate steps here; other threads run in between and threads or the
whole process can die there.
-/
set_option autoImplicit false

namespace Props
open Bpfvm Kernel Pledge Spec

/-- Along every history in which only the library installs filters: the filters of a thread come from pledges of the history, and
a thread with a filter has no_new_privs. `V`: what holds of all requested promises and violations. -/
theorem reachable_armed (V : List Promise → SeccompReturn → Prop) (ops : List Op) (s : System)
    (hs : ∀ (j : Nat) (t : Thread), s[j]? = some t →
      (∃ l, HasPledged t l ∧ ∀ p ∈ l, V p.ps p.v) ∧ (t.filters ≠ [] → t.nnp = true))
    (ho : OnlyPledges ops) (hV : ∀ i b env ps v, Op.pledge i b env ps v ∈ ops → V ps v) :
    ∀ (j : Nat) (t : Thread), (s.run ops)[j]? = some t →
      (∃ l, HasPledged t l ∧ ∀ p ∈ l, V p.ps p.v) ∧ (t.filters ≠ [] → t.nnp = true) := by
  induction ops generalizing s with
  | nil => exact hs
  | cons op ops ih =>
    refine ih (s.step op) ?_ (fun o ho' => ho o (by simp [ho'])) (fun i b env ps v hm => hV i b env ps v (by simp [hm]))
    have lift : ∀ {t t' : Thread}, t'.filters = t.filters → (t.nnp = true → t'.nnp = true) →
        ((∃ l, HasPledged t l ∧ ∀ p ∈ l, V p.ps p.v) ∧ (t.filters ≠ [] → t.nnp = true)) →
        (∃ l, HasPledged t' l ∧ ∀ p ∈ l, V p.ps p.v) ∧ (t'.filters ≠ [] → t'.nnp = true) := by
      rintro t t' he hn ⟨⟨l, h1, h2⟩, h3⟩
      exact ⟨⟨l, by unfold HasPledged; rw [he]; exact h1, h2⟩, fun h => hn (h3 (by rw [← he]; exact h))⟩
    have hon : ∀ i f, (∀ t, ((∃ l, HasPledged t l ∧ ∀ p ∈ l, V p.ps p.v) ∧ (t.filters ≠ [] → t.nnp = true)) →
          (∃ l, HasPledged (f t).1 l ∧ ∀ p ∈ l, V p.ps p.v) ∧ ((f t).1.filters ≠ [] → (f t).1.nnp = true)) →
        ∀ (j : Nat) (t : Thread), (s.on i f)[j]? = some t →
          (∃ l, HasPledged t l ∧ ∀ p ∈ l, V p.ps p.v) ∧ (t.filters ≠ [] → t.nnp = true) := by
      intro i f hf j t' h
      obtain ⟨t, h1, h2⟩ := on_get s i f j t' h
      rcases h2 with ⟨h2, h3⟩ | ⟨_, _, h2, h3⟩
      · exact lift h2 (by rw [h3]; exact id) (hs j t h1)
      · exact lift h2 (by rw [h3]; exact id) (hf t (hs j t h1))
    cases op with
    | pledge i b env ps v =>
      refine hon i _ ?_
      rintro t ⟨⟨l, h1, h2⟩, h3⟩
      simp only
      by_cases he : enter t (recNnp env) = .executed
      · rw [pledge_executed b env t ps v l h1 he]
        split
        · exact ⟨⟨l, h1, h2⟩, h3⟩
        · split
          · exact ⟨⟨l, h1, h2⟩, fun _ => rfl⟩
          · split
            · refine ⟨⟨⟨⟨t.pid, t.tid⟩, ps, v⟩ :: l, ?_, ?_⟩, fun _ => rfl⟩
              · rw [hasPledged_iff] at *
                simp [h1]
              · intro p hp
                simp only [List.mem_cons] at hp
                rcases hp with rfl | hp
                · exact hV i b env ps v (by simp)
                · exact h2 p hp
            · exact ⟨⟨l, h1, h2⟩, fun _ => rfl⟩
      · rw [pledge_not_executed b env t ps v l h1 he]
        exact ⟨⟨l, h1, h2⟩, h3⟩
    | call i d h => exact hon i _ fun t ht => ht
    | setNnp i d h fault =>
      exact hon i _ fun t ht => lift (syscall_nnp_filters _ _ _ _) (nnp_same _ _ _ _).2.2.2.2.2 ht
    | setSeccomp i d h fault p => exact absurd rfl (ho _ (by simp) i d h fault p)
    | cred i a => exact hon i (fun t => ({ t with admin := a }, none)) fun t ht => lift (t := t) rfl id ht
    | crash i w => exact hon i (fun t => (t, some (if w then .killProcess else .killThread))) fun t ht => ht
    | spawn i d h pid tid =>
      intro j t' ht'
      simp only [System.step] at ht'
      split at ht'
      · rename_i t hi
        split at ht'
        · by_cases hj : j < s.length
          · rw [List.getElem?_append_left hj] at ht'
            exact hs j t' ht'
          · rw [List.getElem?_append_right (by omega), List.getElem?_singleton] at ht'
            split at ht'
            · injection ht' with ht'
              exact lift (t := t) (by rw [← ht']) (by rw [← ht']; exact id) (hs i t hi)
            · cases ht'
        · exact hon i _ (fun t ht => ht) j t' ht'
      · exact hs j t' ht'

/-! ## C60 -/

/-- C60: every schedule of calls of `pledge_override` has the same events, in the same order, as a history in which each of these
calls is one indivisible step (at the point where it returns), and leaves the same threads with the same filters. Only a thread
that has not returned from `pledge_override` may differ, and only in having no_new_privs already. -/
theorem C60_schedules_linearize (s : System) (cs : List Choice) :
    ∃ ops, events s ops = ((begin s).run cs).log ∧ (s.run ops).length = ((begin s).run cs).slots.length ∧
      (∀ (k : Nat) (sl : Slot), ((begin s).run cs).slots[k]? = some sl →
        ∃ t, (s.run ops)[k]? = some t ∧ SameButNnp sl.thread t ∧ (sl.job = none → sl.thread = t)) ∧
      (∀ i b env ps v, .pledge i b env ps v ∈ ops → .enter i b env ps v ∈ cs) ∧
      (∀ op ∈ ops, (∃ i b env ps v, op = .pledge i b env ps v) ∨ .other op ∈ cs) := by
  obtain ⟨ops, h1, h2, h3, h4⟩ := matches_run (fun i b env ps v => .enter i b env ps v ∈ cs) cs (begin s) s (matches_begin s)
    (by
      intro k sl j h hj
      simp only [begin, List.getElem?_map] at h
      cases hk : s[k]? with
      | none => rw [hk] at h; cases h
      | some t =>
        rw [hk] at h
        simp only [Option.map_some, Option.some.injEq] at h
        subst h
        cases hj)
    (fun i b env ps v h => h)
  refine ⟨ops, by simpa [begin] using h1.symm, h2.1.symm, ?_, h3, h4⟩
  intro k sl hs
  obtain ⟨c, hc, hm⟩ := h2.get hs
  refine ⟨c, hc, hm.same, fun hj => ?_⟩
  unfold Corr at hm
  rw [hj] at hm
  exact hm

/-- C60, wait-freedom: a thread inside `pledge_override` is out of it, or dead, at the latest after four further steps of its own,
whatever the other threads do in between. -/
theorem C60_wait_free (f : Fine) (k : Nat) (t : Thread) (j : Job) (hk : f.slots[k]? = some ⟨t, some j⟩) (cs : List Choice)
    (hn : 4 ≤ steps k cs) :
    ∃ pre suf, cs = pre ++ suf ∧ ∃ sl, (f.run pre).slots[k]? = some sl ∧ (sl.job = none ∨ sl.thread.alive = false) :=
  finishes_soon cs f k t j hk (by cases j.stage <;> simp [Stage.left] <;> omega)

/-- Not vacuous: four steps. -/
example (j : Job) := C60_wait_free ⟨[⟨thread0, some j⟩], []⟩ 0 thread0 j rfl [.go 0, .go 0, .go 0, .go 0] (by decide)

/-! ## C59 -/

/-- C59: at every point of every schedule in which only the library installs filters - also inside a call and after any crash -
the filters of a thread are complete programs for promises and violations with which `pledge_override` was entered, and a thread
that has a filter has no_new_privs. -/
theorem C59_only_complete_filters (s : System) (cs : List Choice) (hs : Fresh s) (ho : LibraryOnly cs) (k : Nat) (sl : Slot)
    (hk : ((begin s).run cs).slots[k]? = some sl) :
    (∃ l, HasPledged sl.thread l ∧ ∀ p ∈ l, ∃ i b env, .enter i b env p.ps p.v ∈ cs) ∧
    (sl.thread.filters ≠ [] → sl.thread.nnp = true) := by
  obtain ⟨ops, _, _, h3, h4, h5⟩ := C60_schedules_linearize s cs
  obtain ⟨t, ht, hsame, _⟩ := h3 k sl hk
  obtain ⟨⟨l, g1, g2⟩, g3⟩ := reachable_armed (fun ps v => ∃ i b env, .enter i b env ps v ∈ cs) ops s (by
      intro j t hj
      have he : t.filters = [] := hs t (List.mem_of_getElem? hj)
      exact ⟨⟨[], by simp [HasPledged, he], by simp⟩, fun h => absurd he h⟩) (by
      rintro op hop i d h f p rfl
      rcases h5 _ hop with ⟨_, _, _, _, _, hh⟩ | hh
      · cases hh
      · exact ho _ hh i d h f p rfl)
    (fun i b env ps v hm => ⟨i, b, env, h4 i b env ps v hm⟩) k t ht
  refine ⟨⟨l, ?_, g2⟩, fun h => hsame.2.2.2.2.2 (g3 (by rw [← hsame.2.2.1]; exact h))⟩
  unfold HasPledged at *
  rw [hsame.2.2.1]; exact g1

/-- Not vacuous: a schedule in which a thread begins a pledge. -/
example := C59_only_complete_filters [thread0] [.enter 0 ⟨true⟩ calm [.StdIO] .KillProcess] (by simp [Fresh, thread0])
  (by intro c hc i d h f p; simp at hc; simp [hc]) 0 _ rfl

/-- C59, inside a call: from entering `pledge_override` until it returns or the thread dies, the thread's filters, ids and
capability are those it entered with; no_new_privs is kept if set. -/
theorem C59_fixed_inside (f : Fine) (k : Nat) (t : Thread) (j : Job) (hk : f.slots[k]? = some ⟨t, some j⟩) (cs : List Choice)
    (hin : ∀ pre suf, cs = pre ++ suf → ∀ sl, (f.run pre).slots[k]? = some sl → sl.job ≠ none) :
    ∃ sl, (f.run cs).slots[k]? = some sl ∧ sl.thread.filters = t.filters ∧ sl.thread.pid = t.pid ∧ sl.thread.tid = t.tid ∧
      sl.thread.admin = t.admin ∧ (t.nnp = true → sl.thread.nnp = true) := by
  induction cs generalizing f t j with
  | nil => exact ⟨_, hk, rfl, rfl, rfl, rfl, id⟩
  | cons c cs ih =>
    have hin' : ∀ pre suf, cs = pre ++ suf → ∀ sl, ((f.step c).run pre).slots[k]? = some sl → sl.job ≠ none := by
      intro pre suf he sl hs
      exact hin (c :: pre) suf (by rw [he]; rfl) sl hs
    have stay : ∀ t' j', (f.step c).slots[k]? = some ⟨t', some j'⟩ → t'.filters = t.filters → t'.pid = t.pid → t'.tid = t.tid →
        t'.admin = t.admin → (t.nnp = true → t'.nnp = true) →
        ∃ sl, (f.run (c :: cs)).slots[k]? = some sl ∧ sl.thread.filters = t.filters ∧ sl.thread.pid = t.pid ∧
          sl.thread.tid = t.tid ∧ sl.thread.admin = t.admin ∧ (t.nnp = true → sl.thread.nnp = true) := by
      intro t' j' h e1 e2 e3 e4 e5
      obtain ⟨sl, g0, g1, g2, g3, g4, g5⟩ := ih (f.step c) t' j' h hin'
      exact ⟨sl, g0, g1.trans e1, g2.trans e2, g3.trans e3, g4.trans e4, fun h => g5 (e5 h)⟩
    by_cases hc : c = .go k
    · subst hc
      by_cases ha : t.alive = true
      · obtain ⟨sl, h1, h2⟩ := step_go f k t j hk ha
        rcases h2 with h2 | ⟨j', h2, _, h4⟩
        · exact absurd h2 (hin [.go k] cs rfl sl h1)
        · obtain ⟨t', job⟩ := sl
          simp only at h2
          subst h2
          exact stay t' j' h1 h4.2.2.1 h4.1 h4.2.1 h4.2.2.2.1 h4.2.2.2.2.2
      · refine stay t j ?_ rfl rfl rfl rfl id
        simp only [Fine.step, hk, ha]
        exact hk
    · obtain ⟨a, h1, _⟩ := step_busy f c k t j hk hc
      exact stay _ j h1 rfl rfl rfl rfl id

/-- Not vacuous: a thread inside `pledge_override`, before any step. -/
example (j : Job) := C59_fixed_inside ⟨[⟨thread0, some j⟩], []⟩ 0 thread0 j rfl [] (by
  intro pre suf h sl hs
  rw [(List.append_eq_nil_iff.1 h.symm).1] at hs
  cases hs
  simp)

/-- C59, isolation: a step of another thread, or any operation, leaves a thread inside `pledge_override` exactly as it is, except
that it may kill it. -/
theorem C59_no_interference (f : Fine) (c : Choice) (k : Nat) (t : Thread) (j : Job) (h : f.slots[k]? = some ⟨t, some j⟩)
    (hc : c ≠ .go k) :
    ∃ a, (f.step c).slots[k]? = some ⟨{ t with alive := a }, some j⟩ ∧ (a = true → t.alive = true) :=
  step_busy f c k t j h hc

/-- Not vacuous: a thread inside `pledge_override`, while another one makes a step. -/
example (j : Job) := C59_no_interference ⟨[⟨thread0, some j⟩, ⟨thread0, some j⟩], []⟩ (.go 1) 0 thread0 j rfl (by simp)

theorem heirs_self (ops : List Op) (s : System) (own : List Nat) (k : Nat) (h : k ∈ own) : k ∈ heirs s ops own := by
  induction ops generalizing s own with
  | nil => exact h
  | cons op ops ih =>
    unfold heirs
    split
    · refine ih _ _ ?_
      split
      · simp [h]
      · exact h
    · exact ih _ _ h

theorem fine_run_append (f : Fine) (a b : List Choice) : f.run (a ++ b) = (f.run a).run b := by
  simp [Fine.run, List.foldl_append]

/-- C50 under every schedule (partial, as C50): at every point of every schedule a call that is not executed for a thread is never executed
for it later. So far only the library has installed filters, with payloads of at most sixteen bits; afterwards anything.
Missing: earlier wide payloads, for which the claim is false (`C50_false_for_wide_payloads`). -/
theorem C50_every_schedule_partial (s : System) (cs1 cs2 : List Choice) (hs : Fresh s) (ho : LibraryOnly cs1)
    (hV : Chosen PayloadFits cs1) (k : Nat) (sl sl' : Slot) (d : SeccompData)
    (h1 : ((begin s).run cs1).slots[k]? = some sl) (hd : enter sl.thread d ≠ .executed)
    (h2 : ((begin s).run (cs1 ++ cs2)).slots[k]? = some sl') : enter sl'.thread d ≠ .executed := by
  have hJ0 : ∀ (J : Nat → Build → Env → List Promise → SeccompReturn → Prop) (k : Nat) sl j,
      (begin s).slots[k]? = some sl → sl.job = some j → J k j.b j.env j.ps j.v := by
    intro J k sl j h hj
    simp only [begin, List.getElem?_map] at h
    cases hk : s[k]? with
    | none => rw [hk] at h; cases h
    | some t =>
      rw [hk] at h
      simp only [Option.map_some, Option.some.injEq] at h
      subst h
      cases hj
  obtain ⟨ops1, _, a2, a3, a4⟩ := matches_run (fun _ _ _ _ v => PayloadFits v) cs1 (begin s) s (matches_begin s)
    (hJ0 fun _ _ _ _ v => PayloadFits v) hV
  obtain ⟨ops2, _, b2, _, _⟩ := matches_run (fun _ _ _ _ _ => True) cs2 ((begin s).run cs1) (s.run ops1) a2
    (fun _ _ _ _ _ => trivial) (fun _ _ _ _ _ _ => trivial)
  rw [fine_run_append] at h2
  obtain ⟨c, hc, hm⟩ := a2.get h1
  obtain ⟨c', hc', hm'⟩ := b2.get h2
  have e1 : enter sl.thread d = enter c d := by unfold enter; rw [hm.same.2.2.1]
  have e2 : enter sl'.thread d = enter c' d := by unfold enter; rw [hm'.same.2.2.1]
  rw [e2]
  rw [e1] at hd
  refine C50_privileges_never_grow_partial s ops1 ops2 k c d hs ?_ ?_ hc hd k (heirs_self _ _ _ _ (by simp)) c' (by rw [run_append]; exact hc')
  · rintro op hop i d h f p rfl
    rcases a4 _ hop with ⟨_, _, _, _, _, hh⟩ | hh
    · cases hh
    · exact ho _ hh i d h f p rfl
  · exact fun i b env ps v hm => a3 i b env ps v hm

/-- Not vacuous: a thread pledges StdIO, step by step; then execve is not executed, nor when the thread is inside another pledge. -/
example : ∃ sl sl' : Slot, ((begin [thread0]).run (.enter 0 ⟨true⟩ calm [.StdIO] .KillProcess :: List.replicate 4 (.go 0))).slots[0]?
      = some sl ∧
    enter sl.thread (mkCall 59 []) ≠ .executed ∧
    ((begin [thread0]).run ((.enter 0 ⟨true⟩ calm [.StdIO] .KillProcess :: List.replicate 4 (.go 0)) ++
      [.enter 0 ⟨true⟩ calm [.StdIO] .KillProcess])).slots[0]? = some sl' ∧
    enter sl'.thread (mkCall 59 []) ≠ .executed := by
  have hl (t : Thread) (ht : t.filters = [progOf ⟨100, 100⟩ [.StdIO] SeccompReturn.KillProcess.toU32]) :
      enter t (mkCall 59 []) ≠ .executed := by
    unfold enter
    rw [runFilters_pledged (l := [⟨⟨100, 100⟩, [.StdIO], .KillProcess⟩]) ((hasPledged_iff _ _).2 ht)]
    simp only [List.map_cons, List.map_nil]
    rw [verdict_denied rfl ((denies_iff _ _ _).1 (denies_execve _)).2]
    decide
  have h (cs : List Choice) (hc : (((begin [thread0]).run cs).slots[0]?).map (fun sl => sl.thread.filters) =
      some [progOf ⟨100, 100⟩ [.StdIO] SeccompReturn.KillProcess.toU32]) :
      ∃ sl, ((begin [thread0]).run cs).slots[0]? = some sl ∧ enter sl.thread (mkCall 59 []) ≠ .executed := by
    obtain ⟨sl, h1, h2⟩ := Option.map_eq_some_iff.1 hc
    exact ⟨sl, h1, hl _ h2⟩
  obtain ⟨sl, h1, h2⟩ := h (.enter 0 ⟨true⟩ calm [.StdIO] .KillProcess :: List.replicate 4 (.go 0)) (by decide +kernel)
  obtain ⟨sl', h3, h4⟩ := h ((.enter 0 ⟨true⟩ calm [.StdIO] .KillProcess :: List.replicate 4 (.go 0)) ++
    [.enter 0 ⟨true⟩ calm [.StdIO] .KillProcess]) (by decide +kernel)
  exact ⟨sl, sl', h1, h2, h3, h4⟩

/-! ## Concrete schedules -/

theorem askId_fresh (env : Env) (t : Thread) (ht : t.filters = []) (d : SeccompData) (x y : BitVec 32) :
    askId env t d x y = .ok x := by
  unfold askId
  rw [show enter t d = .executed by unfold enter; rw [ht]; show outcome 0x7fff0000#32 = _; decide]

theorem syscall_fresh (h : Option Int) (t : Thread) (ht : t.filters = []) (d : SeccompData) (body : Thread → Thread × Int) :
    syscall h t d body = ((body t).1, .ret (body t).2) := by
  unfold syscall
  rw [show enter t d = .executed by unfold enter; rw [ht]; show outcome 0x7fff0000#32 = _; decide]

/-- A thread of another process. -/
def thread1 : Thread := { thread0 with pid := 200, tid := 200 }

theorem go_inl (f : Fine) (k : Nat) (t : Thread) (j : Job) (t' : Thread) (j' : Job) (h : f.slots[k]? = some ⟨t, some j⟩)
    (ha : t.alive = true) (hn : j.next t = (t', .inl j')) :
    f.step (.go k) = { f with slots := f.slots.set k ⟨t', some j'⟩ } := by
  simp [Fine.step, h, ha, hn]

/-- A call `pledge([StdIO])` that has come to `st`. -/
def jobAt (st : Stage) : Job := ⟨⟨true⟩, calm, [.StdIO], .KillProcess, st⟩

/-- Two processes inside `pledge_override` at the same time; the first has set no_new_privs, the second has only asked for its
pid, and neither has a filter. Then the first is killed. -/
example : ∃ prog,
    (begin [thread0, thread1]).run [.enter 0 ⟨true⟩ calm [.StdIO] .KillProcess, .enter 1 ⟨true⟩ calm [.StdIO] .KillProcess,
      .go 0, .go 1, .go 0, .go 0, .other (.crash 0 true)] =
    ⟨[⟨{ thread0 with nnp := true, alive := false }, some (jobAt (.armed prog))⟩, ⟨thread1, some (jobAt (.pid 200))⟩],
      [.did (.crash 0 true)]⟩ := by
  have hask : asksIds [.StdIO] = true := by rw [asksIds_iff]; decide
  have a0 : thread0.alive = true := rfl
  have a1 : thread1.alive = true := rfl
  refine ⟨progOf ⟨100, 100⟩ [.StdIO] SeccompReturn.KillProcess.toU32, ?_⟩
  simp only [Fine.run, List.foldl_cons, List.foldl_nil]
  rw [show ((begin [thread0, thread1]).step (.enter 0 ⟨true⟩ calm [.StdIO] .KillProcess)).step
    (.enter 1 ⟨true⟩ calm [.StdIO] .KillProcess) = ⟨[⟨thread0, some (jobAt .start)⟩, ⟨thread1, some (jobAt .start)⟩], []⟩ from rfl]
  rw [go_inl ⟨[⟨thread0, some (jobAt .start)⟩, ⟨thread1, some (jobAt .start)⟩], []⟩ 0 thread0 (jobAt .start) thread0
    (jobAt (.pid 100)) rfl a0 (by simp only [Job.next, jobAt, hask, if_true, askId_fresh calm thread0 rfl]; rfl)]
  simp only [List.set_cons_zero, List.set_cons_succ]
  rw [go_inl ⟨[⟨thread0, some (jobAt (.pid 100))⟩, ⟨thread1, some (jobAt .start)⟩], []⟩ 1 thread1 (jobAt .start) thread1
    (jobAt (.pid 200)) rfl a1 (by simp only [Job.next, jobAt, hask, if_true, askId_fresh calm thread1 rfl]; rfl)]
  simp only [List.set_cons_zero, List.set_cons_succ]
  rw [go_inl ⟨[⟨thread0, some (jobAt (.pid 100))⟩, ⟨thread1, some (jobAt (.pid 200))⟩], []⟩ 0 thread0 (jobAt (.pid 100)) thread0
    (jobAt (.ids ⟨100, 100⟩)) rfl a0 (by simp only [Job.next, jobAt, askId_fresh calm thread0 rfl]; rfl)]
  simp only [List.set_cons_zero, List.set_cons_succ]
  rw [go_inl ⟨[⟨thread0, some (jobAt (.ids ⟨100, 100⟩))⟩, ⟨thread1, some (jobAt (.pid 200))⟩], []⟩ 0 thread0
    (jobAt (.ids ⟨100, 100⟩)) { thread0 with nnp := true }
    (jobAt (.armed (progOf ⟨100, 100⟩ [.StdIO] SeccompReturn.KillProcess.toU32)))
    rfl a0 (by simp only [Job.next, jobAt, promisesToProg_eq, syscall_fresh _ thread0 rfl]; rfl)]
  rfl

end Props
