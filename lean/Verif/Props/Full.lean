import Verif.Proofs.Full
import Verif.Props.Linear
import Verif.Props.Init

/-!
# C96: everything at once
-/
set_option autoImplicit false

namespace Props
open Pledge Bpfvm Spec Kernel

theorem untouched_quiet {c : World} (h : Untouched c) : wildOf c = quiet c.threads := by
  unfold wildOf quiet World.threads
  rw [List.map_map]
  apply List.map_congr_left
  intro w hw
  obtain ⟨h1, h2, _⟩ := h w hw
  simp only [busyOf, h1, h2, Function.comp, List.map_nil]

theorem untouched_fresh {c : World} (h : Untouched c) : Fresh c.threads := by
  intro t ht
  obtain ⟨w, hw, rfl⟩ := List.mem_map.1 ht
  exact (h w hw).2.2

theorem derived_library {hs : List Happening} {ms : List Move} (h : NoOthers hs) (hd : ∀ x ∈ ms, ∃ m ∈ hs, Derived m x) : OnlyLibrary ms := by
  rintro x hx i d h' f p rfl
  obtain ⟨m, hm, hD⟩ := hd _ hx
  cases m with
  | other op => cases hD; exact h _ _ _ _ _ hm
  | _ => simp [Derived] at hD

theorem derived_enter {hs : List Happening} {ms : List Move} (hd : ∀ x ∈ ms, ∃ m ∈ hs, Derived m x) {i : Nat} {b : Build} {env : Env}
    {q : Nat → Query} {ps : List Promise} {v : SeccompReturn} (h : .enter i b env q ps v ∈ ms) :
    ∃ seed, .enter i b env q seed ps v ∈ hs := by
  obtain ⟨m, hm, hD⟩ := hd _ h
  cases m with
  | enter i' b' env' q' seed ps' v' => cases hD; exact ⟨seed, hm⟩
  | _ => simp [Derived] at hD

theorem derived_called {hs : List Happening} {ms : List Move} (hd : ∀ x ∈ ms, ∃ m ∈ hs, Derived m x) {ps : List Promise} {v : SeccompReturn}
    (h : Called ms ps v) : Pledges hs ps v := by
  obtain ⟨i, b, env, q, h⟩ := h
  obtain ⟨seed, h⟩ := derived_enter hd h
  exact ⟨i, b, env, q, seed, h⟩

theorem derived_madeUp {hs : List Happening} {ms : List Move} (hd : ∀ x ∈ ms, ∃ m ∈ hs, Derived m x) {ps : List Promise} {v : SeccompReturn}
    {x : BitVec 32} (h : MadeUp ms ps v x) : Invented hs ps v x := by
  obtain ⟨i, b, env, q, k, h, hx⟩ := h
  obtain ⟨seed, h⟩ := derived_enter hd h
  exact ⟨i, b, env, q, seed, k, h, hx⟩

/-- C96: at every moment of every run, every filter of every thread is the whole filter of some pledge that was called, with ids of the
thread or of threads it descends from, or made up by a filter or handler that answered instead of the kernel. -/
theorem C96_filters (c : World) (hc : Untouched c) (hs : List Happening) (ho : NoOthers hs) (k : Nat) (w : Hand)
    (hk : (c.run hs).hands[k]? = some w) (f : Prog) (hf : f ∈ w.thread.filters) :
    ∃ p : Told, Decides f p ∧ Pledges hs p.ps p.v ∧
      p.pids.length = p.ps.count .StdIO ∧ p.tids.length = p.ps.count .StdIO ∧
      (∀ x ∈ p.pids, (∃ i ∈ w.line, i.pid = x) ∨ Invented hs p.ps p.v x) ∧
      (∀ x ∈ p.tids, (∃ i ∈ w.line, i.tid = x) ∨ Invented hs p.ps p.v x) := by
  obtain ⟨ms, h1, h2, _⟩ := run_moves hs c
  rw [untouched_quiet hc] at h1
  obtain ⟨p, g1, g2, g3, g4, g5, g6⟩ := C84_complete_filters c.threads ms (untouched_fresh hc) (derived_library ho h2) k (busyOf w)
    (by rw [h1, wildOf_get, hk]; rfl) f hf
  exact ⟨p, g1, derived_called h2 g2, g3, g4, fun x hx => (g5 x hx).imp id (derived_madeUp h2),
    fun x hx => (g6 x hx).imp id (derived_madeUp h2)⟩

/-- C96: without violations whose payload makes an undefined action, no id is made up, and a thread with a filter has no_new_privs. -/
theorem C96_true_ids (c : World) (hc : Untouched c) (hs : List Happening) (ho : NoOthers hs)
    (hb : ∀ ps v, Pledges hs ps v → ¬ Between v) (k : Nat) (w : Hand) (hk : (c.run hs).hands[k]? = some w) :
    (∀ f ∈ w.thread.filters, ∃ p : Told, Decides f p ∧ Pledges hs p.ps p.v ∧
      p.pids.length = p.ps.count .StdIO ∧ p.tids.length = p.ps.count .StdIO ∧
      (∀ x ∈ p.pids, ∃ i ∈ w.line, i.pid = x) ∧ (∀ x ∈ p.tids, ∃ i ∈ w.line, i.tid = x)) ∧
    (w.thread.filters ≠ [] → w.thread.nnp = true) := by
  obtain ⟨ms, h1, h2, _⟩ := run_moves hs c
  rw [untouched_quiet hc] at h1
  obtain ⟨g1, g2⟩ := C84_true_ids c.threads ms (untouched_fresh hc) (derived_library ho h2)
    (fun ps v h => hb ps v (derived_called h2 h)) k (busyOf w) (by rw [h1, wildOf_get, hk]; rfl)
  refine ⟨fun f hf => ?_, g2⟩
  obtain ⟨p, e1, e2, e3⟩ := g1 f hf
  exact ⟨p, e1, derived_called h2 e2, e3⟩

/-- C96: a call that returns `Ok` has put the filter it promised on top of the thread's filters, and the call that does so is one that
was made. The conditions exclude pledges that make the library's own calls seem to succeed. -/
theorem C96_ok_enforced (c : World) (hc : Untouched c) (hs : List Happening) (ho : NoOthers hs)
    (hv : ∀ ps v, Pledges hs ps v → .StdIO ∈ ps ∨ outcome v.toU32 ≠ .errno 0 ∧ outcome v.toU32 ≠ .trap)
    (k : Nat) (ps : List Promise) (v : SeccompReturn) (hok : (k, ps, v) ∈ okOf (c.run hs) (.go k)) :
    ∃ (w w' : Hand) (f : Prog) (p : Told), (c.run hs).hands[k]? = some w ∧ ((c.run hs).step (.go k)).hands[k]? = some w' ∧
      w'.thread.filters = f :: w.thread.filters ∧ Decides f p ∧ p.ps = ps ∧ p.v = v ∧ Pledges hs p.ps p.v ∧
      p.pids.length = p.ps.count .StdIO ∧ p.tids.length = p.ps.count .StdIO ∧
      (∀ x ∈ p.pids, (∃ i ∈ w.line, i.pid = x) ∨ Invented hs p.ps p.v x) ∧
      (∀ x ∈ p.tids, (∃ i ∈ w.line, i.tid = x) ∨ Invented hs p.ps p.v x) := by
  obtain ⟨ms, h1, h2, _⟩ := run_moves hs c
  rw [untouched_quiet hc] at h1
  cases hk : (c.run hs).hands[k]? with
  | none => simp [okOf, hk] at hok
  | some w =>
    cases hf : w.errands with
    | nil => simp [okOf, hk, hf] at hok
    | cons a rest =>
      simp only [okOf, hk, hf] at hok
      split at hok
      · rename_i hcond
        obtain ⟨ha, hsite, hkeys⟩ := hcond
        split at hok
        · rename_i hr
          simp only [List.mem_singleton, Prod.mk.injEq, true_and] at hok
          obtain ⟨rfl, rfl⟩ := hok
          cases hn : a.act.next w.thread with
          | mk t' r =>
            rw [hn] at hr
            simp only at hr
            subst hr
            obtain ⟨f, p, g1, g2, g3, g4, g5, g6, g7, g8, g9⟩ := C84_ok_enforced c.threads ms (untouched_fresh hc)
              (derived_library ho h2) (fun ps v h => hv ps v (derived_called h2 h)) k w.thread t' a.act (rest.map Errand.act) w.line
              (by rw [h1, wildOf_get, hk]; simp only [Option.map_some, busyOf, hf, List.map_cons]) hn
            have hlt : k < (c.run hs).hands.length := (List.getElem?_eq_some_iff.1 hk).1
            refine ⟨w, { w with thread := t', errands := rest }, f, p, rfl, ?_, g1, g2, g3, g4, derived_called h2 g5, g6, g7,
              fun x hx => (g8 x hx).imp id (derived_madeUp h2), fun x hx => (g9 x hx).imp id (derived_madeUp h2)⟩
            have hkeys' : ¬ ((a.act.assembles && !w.keys) = true) := by simpa using hkeys
            simp only [World.step, hk, hf, ha, if_true, World.advance, hsite, if_neg hkeys', hn, World.ends, PledgeRes.death]
            simp [hlt]
        · cases hok
      · cases hok

/-- C96: what a thread may not do, it and all its descendants may never do again, across forks, new threads and exec. -/
theorem C96_never_grow (c : World) (hc : Untouched c) (hs hs' : List Happening) (ho : NoOthers (hs ++ hs'))
    (hb : ∀ ps v, Pledges (hs ++ hs') ps v → ¬ Between v) (k : Nat) (w : Hand) (hk : (c.run hs).hands[k]? = some w)
    (d : SeccompData) (hd : enter w.thread d ≠ .executed) (j : Nat) (hj : j ∈ kin (c.run hs) hs' [k]) (w' : Hand)
    (hj' : (c.run (hs ++ hs')).hands[j]? = some w') : enter w'.thread d ≠ .executed := by
  obtain ⟨ms, h1, h2, _⟩ := run_moves hs c
  rw [untouched_quiet hc] at h1
  have ho1 : NoOthers hs := fun i d h f p hm => ho i d h f p (List.mem_append_left _ hm)
  have hb1 : ∀ ps v, Called ms ps v → ¬ Between v := by
    intro ps v h
    obtain ⟨i, b, env, q, seed, hm⟩ := derived_called h2 h
    exact hb ps v ⟨i, b, env, q, seed, List.mem_append_left _ hm⟩
  have h := ran true c.threads ms (untouched_fresh hc) (derived_library ho1 h2) (fun _ => hb1) (busyOf w)
    (List.mem_of_getElem? (i := k) (by rw [h1, wildOf_get, hk]; rfl))
  have hrun : c.run (hs ++ hs') = (c.run hs).run hs' := by simp [World.run]
  rw [hrun] at hj'
  have hg := kin_grown hs' (c.run hs) [k] w.thread (by
      intro i hi u hu
      rw [List.mem_singleton.1 hi, hk] at hu
      cases hu
      exact .refl _) (by
      intro i hi
      rw [List.mem_singleton.1 hi]
      exact (List.getElem?_eq_some_iff.1 hk).1) j hj w' hj'
  exact denied_suffix hg.1 (fun f hf => (h.filters f hf).sane (fun q ps v ⟨i, b, env, hm⟩ => hb1 ps v ⟨i, b, env, q, hm⟩)) d hd

/-- C96: if no thread forks inside a call, the run has the same effect on every thread as a history in which each call is one indivisible
step, and the same calls return `Ok`, in the same order. -/
theorem C96_indivisible (c : World) (hc : Untouched c) (hs : List Happening) (ho : NoOthers hs) (hf : ForksOutside c hs) :
    ∃ ops, c.threads.run ops = (c.run hs).threads ∧ okEnds (results c.threads ops) = oks c hs ∧ ∀ op ∈ ops, Means hs op := by
  obtain ⟨ms, h1, h2, h3, h4⟩ := run_moves hs c
  have h4 := h4 hf
  rw [untouched_quiet hc] at h1 h3 h4
  obtain ⟨ops, g1, g2, g3⟩ := C93_indivisible c.threads ms (untouched_fresh hc) (derived_library ho h2) h4
  refine ⟨ops, by rw [g1, h1, wildOf_threads], by rw [g2, h3], fun op hop => ?_⟩
  have hst := g3 op hop
  have oth : ∀ op, .other op ∈ ms → (∀ i w, op ≠ .crash i w) → .other op ∈ hs := by
    intro op hm hne
    obtain ⟨m, hmm, hD⟩ := h2 _ hm
    cases m with
    | other op' => cases hD; exact hmm
    | go i =>
      rcases hD with h | h | ⟨k, wh, h⟩
      · cases h
      · cases h
      · cases h; exact absurd rfl (hne k wh)
    | exec i d h =>
      rcases hD with ⟨_, h⟩ | ⟨k, wh, h⟩
      · cases h
      · cases h; exact absurd rfl (hne k wh)
    | _ => simp [Derived] at hD
  cases op with
  | pledge i b env ps v =>
    obtain ⟨env0, q, hm, he⟩ := hst
    obtain ⟨seed, hm⟩ := derived_enter h2 hm
    exact ⟨env0, q, seed, hm, he⟩
  | spawn i d h pid tid =>
    obtain ⟨cp, hm⟩ := hst
    obtain ⟨m, hmm, hD⟩ := h2 _ hm
    cases m with
    | fork => cases hD; exact .inl ⟨_, hmm⟩
    | clone => obtain ⟨_, hD⟩ := hD; cases hD; exact .inr (.inl hmm)
    | exec =>
      rcases hD with ⟨_, hD⟩ | ⟨_, _, hD⟩
      · cases hD; exact .inr (.inr hmm)
      · cases hD
    | _ => simp [Derived] at hD
  | setNnp i d h f =>
    rcases hst with hm | ⟨b, env, q, ps, v, hm, he⟩
    · exact .inl (oth _ hm (by simp))
    · obtain ⟨seed, hm⟩ := derived_enter h2 hm
      exact .inr ⟨b, env, q, seed, ps, v, hm, he⟩
  | crash => trivial
  | call i d h => exact oth _ hst (by simp)
  | setSeccomp i d h f p => exact oth _ hst (by simp)
  | cred i a => exact oth _ hst (by simp)

/-- A process that has not pledged: one thread, no hash keys, no table. -/
def world0 : World := ⟨[⟨thread0, 0, false, [], [⟨100, 100⟩]⟩], [.idle]⟩

/-- The thread makes a second one and pledges; in the middle of making the table it is interrupted, the second thread pledges and waits,
a handler forks; when the table is there, the second thread and the child go on too. -/
def crowd : List Happening :=
  let enter (i : Nat) (ps : List Promise) : Happening :=
    .enter i ⟨true⟩ calm (fun _ => ⟨0, fun _ => 0, 0⟩) ⟨0, fun _ => 0, .panics⟩ ps .KillProcess
  [.clone 0 (mkCall 56 []) none 101, enter 0 [.StdIO, .Exec], .go 0, enter 1 [.StdIO], .go 1, .go 0, .go 0,
    .fork 0 (mkCall 57 []) none 200 200] ++
  List.replicate 120 (.go 0) ++ List.replicate 120 (.go 1) ++ List.replicate 119 (.go 2)

example : Untouched world0 ∧ NoOthers crowd := by
  refine ⟨fun w hw => ?_, fun i d h f p hm => ?_⟩
  · rw [List.mem_singleton.1 hw]; exact ⟨rfl, rfl, rfl⟩
  · simp only [crowd, List.mem_append, List.mem_replicate, List.mem_cons, reduceCtorEq, and_false, or_false, List.not_mem_nil] at hm

set_option maxRecDepth 100000 in
/-- All three calls return `Ok`: those of the two threads and the one the child took over. -/
example : oks world0 crowd = [(0, [.StdIO, .Exec], .KillProcess), (1, [.StdIO], .KillProcess), (2, [.StdIO, .Exec], .KillProcess)] := by
  decide +kernel

/-- A fork outside of calls: the child pledges. -/
example : ForksOutside world0 [.fork 0 (mkCall 57 []) none 200 200,
    .enter 1 ⟨true⟩ calm (fun _ => ⟨0, fun _ => 0, 0⟩) ⟨0, fun _ => 0, .panics⟩ [.StdIO] .KillProcess, .go 1] := by
  refine ⟨?_, trivial, trivial, trivial⟩
  intro w hw
  simp only [world0, List.getElem?_cons_zero, Option.some.injEq] at hw
  rw [← hw]

/-- The condition of `C96_ok_enforced` holds for the calls of `crowd`, and that of `C96_true_ids` too. -/
example : ∀ ps v, Pledges crowd ps v → .StdIO ∈ ps ∧ ¬ Between v := by
  rintro ps v ⟨i, b, env, q, seed, hm⟩
  simp only [crowd, List.mem_append, List.mem_replicate, List.mem_cons, reduceCtorEq, and_false, or_false, List.not_mem_nil, false_or,
    Happening.enter.injEq] at hm
  rcases hm with ⟨_, _, _, _, _, rfl, rfl⟩ | ⟨_, _, _, _, _, rfl, rfl⟩ <;> exact ⟨by simp, by simp [Between]⟩

end Props
