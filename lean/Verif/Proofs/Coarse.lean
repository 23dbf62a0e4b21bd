import Verif.Spec.Coarse
import Verif.Proofs.Alone
import Verif.Props.Reduce

/-!
# `Model/Init` as a coarse view of `Model/Full`
-/
set_option autoImplicit false

namespace Spec
open Pledge Bpfvm Kernel Props

theorem coarse_get (c : World) (i : Nat) : (World.coarse c).workers[i]? = c.hands[i]?.map Hand.coarse := by
  simp [World.coarse]

theorem coarse_threads (c : World) : (World.coarse c).threads = c.threads := by
  simp [World.coarse, Crew.threads, World.threads, Hand.coarse, Function.comp_def]

theorem coarse_withThreads (c : World) (s : System) : World.coarse (c.withThreads s) = (World.coarse c).withThreads s := by
  unfold World.coarse World.withThreads Crew.withThreads
  simp only [Crew.mk.injEq, and_true]
  generalize c.hands = l
  induction l generalizing s with
  | nil => simp
  | cons w l ih =>
    cases s with
    | nil => simp
    | cons t s => simp only [List.zipWith_cons_cons, List.map_cons, ih]; rfl

theorem coarse_put (c : World) (i : Nat) (w : Hand) :
    World.coarse (World.put c i w) = { World.coarse c with workers := (World.coarse c).workers.set i (Hand.coarse w) } := by
  simp [World.coarse, World.put, List.map_set]

theorem coarse_ends (c : World) (i : Nat) (w : Hand) (r : PledgeRes) :
    World.coarse (c.ends i w r) = (World.coarse c).ends i (Hand.coarse w) r := by
  have h : World.coarse { c with hands := c.hands.set i { w with errands := w.errands.tail } } =
      { World.coarse c with workers := (World.coarse c).workers.set i { Hand.coarse w with frames := (Hand.coarse w).frames.tail } } := by
    refine (coarse_put c i { w with errands := w.errands.tail }).trans ?_
    simp [Hand.coarse, List.map_tail]
  unfold World.ends Crew.ends
  cases r.death with
  | none => exact h
  | some o => simp only [coarse_withThreads, h, ← coarse_threads]; rfl

theorem finish_ends (c : World) (i : Nat) (w : Hand) (t : Thread) (r : PledgeRes) (f : Errand) (hp : t.pid = w.thread.pid) :
    finish c i w t r = c.ends i { w with thread := t, errands := f :: w.errands } r := by
  unfold finish World.ends
  cases r.death with
  | none => rfl
  | some o => simp only [hp]; rfl

/-- Worlds between the steps of `Model/Init`: calls have not asked for anything, or have just got everything. -/
def Even (w : Hand) (e : Errand) : Prop :=
  e.act.phase = .start ∨ (e.site = .rest ∧ e.act.phase = .making 0 (allFilters e.act.ps) [] ∧ w.keys = true)

def AllEven (c : World) : Prop := ∀ w ∈ c.hands, ∀ e ∈ w.errands, Even w e

theorem even_set {c : World} {i : Nat} {w : Hand} {cells : List Cell} (h : AllEven c) (hw : ∀ e ∈ w.errands, Even w e) :
    AllEven { hands := c.hands.set i w, cells := cells } := by
  intro u hu
  rcases List.mem_or_eq_of_mem_set hu with hu | rfl
  · exact h u hu
  · exact hw

theorem even_withThreads {c : World} (h : AllEven c) (s : System) : AllEven (c.withThreads s) := by
  intro u hu e he
  unfold World.withThreads at hu
  simp only at hu
  obtain ⟨k, hk⟩ := List.mem_iff_getElem?.1 hu
  rw [List.getElem?_zipWith] at hk
  split at hk
  · rename_i w t h1 h2
    cases hk
    exact h w (List.mem_of_getElem? h1) e he
  · cases hk

theorem even_ends {c : World} {i : Nat} {w : Hand} {r : PledgeRes} (h : AllEven c) (hw : ∀ e ∈ w.errands.tail, Even w e) :
    AllEven (c.ends i w r) := by
  unfold World.ends
  have := even_set (c := c) (i := i) (w := { w with errands := w.errands.tail }) (cells := c.cells) h hw
  cases r.death with
  | none => exact this
  | some o => exact even_withThreads this _

/-- More keys do not hurt. -/
theorem even_keys {w : Hand} {e : Errand} (h : Even w e) : Even { w with keys := true } e := by
  rcases h with h | ⟨h1, h2, _⟩
  · exact .inl h
  · exact .inr ⟨h1, h2, rfl⟩

theorem ends_put (c : World) (i : Nat) (u w : Hand) (r : PledgeRes) : (World.put c i u).ends i w r = c.ends i w r := by
  unfold World.ends World.put
  simp only [List.set_set]

theorem coarse_with (w : Hand) (f : Errand) : Hand.coarse (w.with f) = { Hand.coarse w with frames := Errand.coarse f :: (Hand.coarse w).frames.tail } := by
  simp [Hand.coarse, Hand.with, List.map_tail]

theorem even_with {w : Hand} {f : Errand} (hw : ∀ e ∈ w.errands, Even w e) (hf : Even w f) : ∀ e ∈ (w.with f).errands, Even (w.with f) e := by
  intro e he
  have he : e ∈ f :: w.errands.tail := he
  rcases List.mem_cons.1 he with rfl | he
  · exact hf
  · exact hw e (List.mem_of_mem_tail he)

/-- One step of `Model/Init` is some steps of `Model/Full`. -/
theorem advance_coarse {c : World} {i : Nat} {w : Hand} {f : Errand} {rest : List Errand} (he : AllEven c) (h : c.hands[i]? = some w)
    (ha : w.thread.alive = true) (hf : w.errands = f :: rest) (l : List Past) (hl : HasPledged w.thread l) :
    ∃ n, World.coarse (c.run (gos i n)) = (World.coarse c).advance i (Hand.coarse w) (Errand.coarse f) ∧ AllEven (c.run (gos i n)) := by
  have hw := he w (List.mem_of_getElem? h)
  have hev := hw f (by rw [hf]; simp)
  have htl : ∀ e ∈ w.errands.tail, Even w e := fun e h => hw e (List.mem_of_mem_tail h)
  have one : c.run (gos i 1) = c.advance i w f := go_rest h ha hf
  obtain ⟨⟨b, env, q, ps, v, phase⟩, seed, site⟩ := f
  cases site with
  | table =>
    refine ⟨1, ?_⟩
    rw [one]
    have hp : phase = .start := by
      rcases hev with h | ⟨h, _⟩
      · exact h
      · cases h
    subst hp
    have hcell : (World.coarse c).cells = c.cells := rfl
    simp only [World.advance, Crew.advance, Errand.coarse, Errand.place, hcell]
    rw [show (Hand.coarse w).mem = w.mem from rfl]
    cases hx : c.cells[w.mem]? with
    | none => exact ⟨rfl, he⟩
    | some x =>
      cases x with
      | running => exact ⟨rfl, he⟩
      | poisoned => exact ⟨coarse_ends _ _ _ _, even_ends he htl⟩
      | ready =>
        refine ⟨?_, even_set he (even_with hw (.inl rfl))⟩
        simp only [World.coarse, List.map_set, coarse_with]
        rfl
      | idle =>
        refine ⟨?_, even_set he (even_with hw (.inl rfl))⟩
        simp only [World.coarse, List.map_set, coarse_with]
        rfl
  | init =>
    refine ⟨1, ?_⟩
    rw [one]
    have hp : phase = .start := by
      rcases hev with h | ⟨h, _⟩
      · exact h
      · cases h
    subst hp
    simp only [World.advance, Crew.advance, Errand.coarse, Errand.place]
    rw [show (Hand.coarse w).keys = w.keys from rfl, show (Hand.coarse w).thread = w.thread from rfl]
    cases hk : w.keys with
    | true =>
      refine ⟨?_, even_set he (even_with hw (.inl rfl))⟩
      simp only [if_true, World.coarse, List.map_set, coarse_with]
      rfl
    | false =>
      simp only [Bool.false_eq_true, if_false]
      cases hq : askKeys env.handler w.thread seed with
      | ok u =>
        refine ⟨?_, even_set he (even_with (w := { w with keys := true }) (fun e h => even_keys (hw e h)) (.inl rfl))⟩
        simp only [World.coarse, List.map_set, coarse_with]
        rfl
      | error r =>
        have he' : AllEven { c with cells := c.cells.set w.mem .poisoned } := he
        cases r with
        | panic => exact ⟨coarse_ends _ _ _ _, even_ends he' htl⟩
        | ok => exact ⟨coarse_ends _ _ _ _, even_ends he htl⟩
        | err e => exact ⟨coarse_ends _ _ _ _, even_ends he htl⟩
        | died o => exact ⟨coarse_ends _ _ _ _, even_ends he htl⟩
  | rest =>
    have e3 : (Act.mk b env q ps v .start).next w.thread = (w.thread, .inl ⟨b, env, q, ps, v, .making 0 (allFilters ps) []⟩) := by
      simp only [Act.next, mapM_filters]; rfl
    rcases hev with hp | ⟨_, hp, hk⟩
    · have hp : phase = .start := hp
      subst hp
      let f' : Errand := ⟨⟨b, env, q, ps, v, .making 0 (allFilters ps) []⟩, seed, .rest⟩
      have e4 : c.run (gos i 1) = World.put c i (w.with f') := by
        rw [one]
        simp only [World.advance, Act.assembles, Bool.false_and, Bool.false_eq_true, if_false, e3]
        rfl
      simp only [Crew.advance, Errand.coarse, Errand.place]
      rw [show (Hand.coarse w).keys = w.keys from rfl, show (Hand.coarse w).thread = w.thread from rfl]
      cases hk : w.keys with
      | true =>
        refine ⟨1, ?_⟩
        rw [e4]
        refine ⟨?_, even_set he (even_with hw (.inr ⟨rfl, rfl, hk⟩))⟩
        simp only [if_true, coarse_put, coarse_with]
        rfl
      | false =>
        refine ⟨2, ?_⟩
        rw [show 2 = 1 + 1 from rfl, run_gos_add, e4]
        have e5 : (World.put c i (w.with f')).run (gos i 1) = (World.put c i (w.with f')).advance i (w.with f') f' :=
          go_rest (put_get h _) ha rfl
        rw [e5]
        simp only [World.advance, f', Act.assembles, Bool.true_and]
        rw [show (w.with ⟨⟨b, env, q, ps, v, .making 0 (allFilters ps) []⟩, seed, .rest⟩).keys = false from hk]
        simp only [Bool.not_false, if_true, Bool.false_eq_true, if_false]
        rw [show (w.with ⟨⟨b, env, q, ps, v, .making 0 (allFilters ps) []⟩, seed, .rest⟩).thread = w.thread from rfl]
        cases hq : askKeys env.handler w.thread seed with
        | ok u =>
          refine ⟨?_, ?_⟩
          · simp only [World.coarse, World.put, List.set_set, List.map_set]
            congr 2
            simp [Hand.coarse, Hand.with, Worker.moved, Errand.coarse, Errand.place, List.map_tail]
          · simp only [World.put, List.set_set]
            exact even_set he (even_with (w := { w with keys := true }) (fun e h => even_keys (hw e h)) (.inr ⟨rfl, rfl, rfl⟩))
        | error r =>
          simp only
          rw [ends_put]
          have hdrop : ∀ r, c.ends i (w.with ⟨⟨b, env, q, ps, v, .making 0 (allFilters ps) []⟩, seed, .rest⟩) r = c.ends i w r := by
            intro r; unfold World.ends Hand.with; rfl
          rw [hdrop]
          exact ⟨coarse_ends _ _ _ _, even_ends he htl⟩
    · have hp : phase = .making 0 (allFilters ps) [] := hp
      subst hp
      let w' : Hand := { w with errands := rest }
      obtain ⟨n, _, hn, _⟩ := rest_run (put_get h w') hk ha seed b env q ps v (allFilters ps) 0 []
      rw [put_put] at hn
      rw [show inCall w' w'.thread seed ⟨b, env, q, ps, v, .making 0 (allFilters ps) []⟩ = w by simp [inCall, w', ← hf], put_self h] at hn
      refine ⟨n, ?_⟩
      have hr := (calls_rest b env q w.thread ps v).symm.trans (C78_as_if_asked_once b env q w.thread l hl ps v)
      have hpid : (restOf b env q v w'.thread 0 (allFilters ps) []).1.pid = w'.thread.pid := by
        show (restOf b env q v w.thread 0 (allFilters ps) []).1.pid = w.thread.pid
        rw [hr]
        exact (pledge_ids b env w.thread ps v).1
      rw [hn, finish_ends _ _ _ _ _ ⟨⟨b, env, q, ps, v, .making 0 (allFilters ps) []⟩, seed, .rest⟩ hpid, ends_put]
      show World.coarse (c.ends i { w with thread := (restOf b env q v w.thread 0 (allFilters ps) []).1, errands := _ :: rest } (restOf b env q v w.thread 0 (allFilters ps) []).2) = _ ∧ _
      rw [hr, ← hf]
      refine ⟨?_, even_ends he ?_⟩
      · rw [coarse_ends]; rfl
      · exact htl

theorem run_one (c : World) (m : Happening) : c.run [m] = c.step m := rfl

/-- One turn of `Model/Init` is some happenings of `Model/Full`. -/
theorem step_coarse {c : World} (he : AllEven c) (hl : ∀ w ∈ c.hands, ∃ l, HasPledged w.thread l) (m : Turn)
    (q : Nat → Query) :
    ∃ hs, World.coarse (c.run hs) = (World.coarse c).step m ∧ AllEven (c.run hs) ∧ callsFine hs = (callsCoarse [m]).map (·, q) := by
  cases m with
  | enter i call =>
    refine ⟨[.enter i call.b call.env q call.seed call.ps call.v], ?_, ?_, rfl⟩
    · rw [run_one]
      simp only [World.step, Crew.step, coarse_get]
      cases hw : c.hands[i]? with
      | none => rfl
      | some w =>
        simp only [Option.map_some]
        rw [show (Hand.coarse w).thread = w.thread from rfl]
        split
        · simp only [World.coarse, List.map_set]; rfl
        · rfl
    · rw [run_one]
      simp only [World.step]
      cases hw : c.hands[i]? with
      | none => exact he
      | some w =>
        simp only
        split
        · refine even_set he ?_
          intro e hmem
          rcases List.mem_cons.1 hmem with rfl | hmem
          · exact .inl rfl
          · exact he w (List.mem_of_getElem? hw) e hmem
        · exact he
  | go i =>
    cases hw : c.hands[i]? with
    | none => exact ⟨[], by simp [World.run, Crew.step, coarse_get, hw], he, rfl⟩
    | some w =>
      cases hf : w.errands with
      | nil => exact ⟨[], by simp [World.run, Crew.step, coarse_get, hw, Hand.coarse, hf], he, rfl⟩
      | cons f rest =>
        cases ha : w.thread.alive with
        | false => exact ⟨[], by simp [World.run, Crew.step, coarse_get, hw, Hand.coarse, hf, ha], he, rfl⟩
        | true =>
          obtain ⟨l, hl⟩ := hl w (List.mem_of_getElem? hw)
          obtain ⟨n, h1, h2⟩ := advance_coarse he hw ha hf l hl
          refine ⟨gos i n, ?_, h2, ?_⟩
          · rw [h1]
            simp only [Crew.step, coarse_get, hw, Option.map_some]
            rw [show (Hand.coarse w).frames = Errand.coarse f :: rest.map Errand.coarse by simp [Hand.coarse, hf]]
            rw [show (Hand.coarse w).thread = w.thread from rfl]
            simp only [ha, if_true]
          · clear h1 h2
            unfold gos callsFine callsCoarse
            rw [List.filterMap_eq_nil_iff.2]
            · rfl
            · intro x hx
              rw [List.eq_of_mem_replicate hx]
  | fork i d h pid tid =>
    refine ⟨[.fork i d h pid tid], ?_, ?_, rfl⟩
    · rw [run_one]
      simp only [World.step, Crew.step, coarse_get]
      cases hw : c.hands[i]? with
      | none => rfl
      | some w =>
        simp only [Option.map_some]
        rw [show (Hand.coarse w).thread = w.thread from rfl]
        split
        · simp [World.coarse, Hand.coarse]
        · rw [coarse_withThreads, coarse_threads]
    · rw [run_one]
      simp only [World.step]
      cases hw : c.hands[i]? with
      | none => exact he
      | some w =>
        simp only
        split
        · intro u hu e hmem
          rcases List.mem_append.1 hu with hu | hu
          · exact he u hu e hmem
          · rw [List.mem_singleton.1 hu] at hmem ⊢
            exact he w (List.mem_of_getElem? hw) e hmem
        · exact even_withThreads he _
  | clone i d h tid =>
    refine ⟨[.clone i d h tid], ?_, ?_, rfl⟩
    · rw [run_one]
      simp only [World.step, Crew.step, coarse_get]
      cases hw : c.hands[i]? with
      | none => rfl
      | some w =>
        simp only [Option.map_some]
        rw [show (Hand.coarse w).thread = w.thread from rfl]
        split
        · simp [World.coarse, Hand.coarse]
        · rw [coarse_withThreads, coarse_threads]
    · rw [run_one]
      simp only [World.step]
      cases hw : c.hands[i]? with
      | none => exact he
      | some w =>
        simp only
        split
        · intro u hu e hmem
          rcases List.mem_append.1 hu with hu | hu
          · exact he u hu e hmem
          · rw [List.mem_singleton.1 hu] at hmem
            cases hmem
        · exact even_withThreads he _
  | exec i d h =>
    refine ⟨[.exec i d h], ?_, ?_, rfl⟩
    · rw [run_one]
      simp only [World.step, Crew.step, coarse_get]
      cases hw : c.hands[i]? with
      | none => rfl
      | some w =>
        simp only [Option.map_some]
        rw [show (Hand.coarse w).thread = w.thread from rfl]
        split
        · simp only [World.coarse, List.map_append, List.map_map, Crew.mk.injEq, and_true]
          congr 1
          apply List.map_congr_left
          intro u _
          by_cases hm : u.mem = w.mem <;> simp [Function.comp, Hand.coarse, hm]
        · rw [coarse_withThreads, coarse_threads]
    · rw [run_one]
      simp only [World.step]
      cases hw : c.hands[i]? with
      | none => exact he
      | some w =>
        simp only
        split
        · intro u hu e hmem
          rcases List.mem_append.1 hu with hu | hu
          · obtain ⟨u0, hu0, rfl⟩ := List.mem_map.1 hu
            have := he u0 hu0 e (by revert hmem; split <;> exact id)
            revert this
            split <;> exact id
          · rw [List.mem_singleton.1 hu] at hmem
            cases hmem
        · exact even_withThreads he _
  | other op =>
    refine ⟨[.other op], ?_, ?_, rfl⟩
    · rw [run_one]
      cases op <;> first | rfl | (simp only [World.step, Crew.step, coarse_withThreads, coarse_threads])
    · rw [run_one]
      cases op <;> first | exact he | exact even_withThreads he _

end Spec
