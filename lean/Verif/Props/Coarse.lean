import Verif.Proofs.Coarse
import Verif.Props.Init
import Verif.Spec.Table

/-!
# C104: threads that wait for each other, in the full model

What `Model/Init` (C86 to C88) lets threads do can also happen when they may be interrupted at every system call.
-/
set_option autoImplicit false

namespace Props
open Pledge Bpfvm Kernel Spec

/-- Nobody has pledged yet: the same in both models. -/
theorem unused_coarse {c : World} (h : Unmade c) : Unused (World.coarse c) := by
  refine ⟨fun w hw => ?_, h.2⟩
  obtain ⟨u, hu, rfl⟩ := List.mem_map.1 hw
  exact ⟨by simp [Hand.coarse, (h.1 u hu).1], (h.1 u hu).2⟩

/-- C104: start where nobody has pledged, and let only the library install filters. Whatever comes out when a call of `pledge_override`
can be interrupted only until it has the promise table and hash keys, also comes out of a run in which it can be interrupted at every
system call: same threads, memories, tables and calls in progress. The same threads make the same calls in the same order; what becomes of
the queries for the ids (`q`) makes no difference. -/
theorem C104_refines (c : World) (hu : Unmade c) (hf : ∀ w ∈ c.hands, w.thread.filters = []) (q : Nat → Query) (ms : List Turn)
    (ho : ∀ i d h f p, .other (.setSeccomp i d h f p) ∉ ms) :
    ∃ hs, World.coarse (c.run hs) = (World.coarse c).run ms ∧ callsFine hs = (callsCoarse ms).map (·, q) := by
  have key : ∀ (ts pre : List Turn) (W : World), pre ++ ts = ms → World.coarse W = (World.coarse c).run pre → AllEven W →
      ∃ hs, World.coarse (W.run hs) = (World.coarse c).run ms ∧ callsFine hs = (callsCoarse ts).map (·, q) := by
    intro ts
    induction ts with
    | nil =>
      intro pre W h1 h2 _
      rw [List.append_nil] at h1
      exact ⟨[], by rw [← h1]; exact h2, rfl⟩
    | cons m ts ih =>
      intro pre W h1 h2 h3
      have hpl : ∀ w ∈ W.hands, ∃ l, HasPledged w.thread l := by
        intro w hw
        obtain ⟨k, hk⟩ := List.mem_iff_getElem?.1 hw
        have hk' : ((World.coarse c).run pre).workers[k]? = some (Hand.coarse w) := by rw [← h2, coarse_get, hk]; rfl
        obtain ⟨l, hl, _⟩ := C88_filters (World.coarse c) (unused_coarse hu)
          (by
            intro u hu'
            obtain ⟨u', hm, rfl⟩ := List.mem_map.1 hu'
            exact hf u' hm) pre
          (by
            intro i d h f p hmem
            exact ho i d h f p (by rw [← h1]; exact List.mem_append_left _ hmem)) k _ hk'
        exact ⟨l, hl⟩
      obtain ⟨hs, e1, e2, e3⟩ := step_coarse h3 hpl m q
      obtain ⟨hs', e4, e5⟩ := ih (pre ++ [m]) (W.run hs) (by rw [← h1]; simp)
        (by rw [e1, h2]; unfold Crew.run; rw [List.foldl_append]; rfl) e2
      refine ⟨hs ++ hs', by rw [world_run_append]; exact e4, ?_⟩
      rw [show callsFine (hs ++ hs') = callsFine hs ++ callsFine hs' by simp [callsFine], e3, e5]
      show _ = (callsCoarse ([m] ++ ts)).map (·, q)
      simp only [callsCoarse, List.filterMap_append, List.map_append]
  refine key ms [] c rfl rfl ?_
  intro w hw e he
  rw [(hu.1 w hw).1] at he
  cases he

/-- Every start of `Model/Init` is the view of a start of `Model/Full`. -/
theorem C104_starts (c : Crew) (hu : Unused c) : ∃ W : World, World.coarse W = c ∧ Unmade W := by
  refine ⟨⟨c.workers.map fun w => ⟨w.thread, w.mem, w.keys, [], [⟨w.thread.pid, w.thread.tid⟩]⟩, c.cells⟩, ?_, ?_, hu.2⟩
  · unfold World.coarse
    simp only [List.map_map]
    rw [List.map_congr_left (g := id), List.map_id]
    intro w hw
    obtain ⟨t, m, k, fs⟩ := w
    have := (hu.1 _ hw).1
    dsimp only at this
    subst this
    rfl
  · intro w hw
    obtain ⟨u, hu', rfl⟩ := List.mem_map.1 hw
    exact ⟨rfl, (hu.1 u hu').2⟩

/-- So what holds of the threads in all runs of the full model holds in all such runs of the coarser one. -/
theorem C104_transfers (P : System → Prop) (c : Crew) (hu : Unused c) (hf : ∀ w ∈ c.workers, w.thread.filters = [])
    (hP : ∀ W : World, World.coarse W = c → ∀ hs, P (W.run hs).threads) (ms : List Turn)
    (ho : ∀ i d h f p, .other (.setSeccomp i d h f p) ∉ ms) : P (c.run ms).threads := by
  obtain ⟨W, rfl, hW⟩ := C104_starts c hu
  obtain ⟨hs, h1, _⟩ := C104_refines W hW (fun w hw => hf _ (List.mem_map_of_mem hw)) (fun _ => ⟨0, fun _ => 0, 0⟩) ms ho
  rw [← h1, coarse_threads]
  exact hP W rfl hs

/-- Not empty: one thread makes the table, another thread of the process waits for it, and then both have
it. -/
example (call : Call) (q : Nat → Query) :
    let u : Thread := { thread0 with tid := 101 }
    let c : World := ⟨[⟨thread0, 0, true, [], [⟨100, 100⟩]⟩, ⟨u, 0, true, [], [⟨100, 101⟩]⟩], [.idle]⟩
    let ms : List Turn := [.enter 0 call, .go 0, .enter 1 call, .go 1, .go 0, .go 1]
    Unmade c ∧ (∀ w ∈ c.hands, w.thread.filters = []) ∧
    (World.coarse c).run ms = ⟨[⟨thread0, 0, true, [⟨call, .seed⟩]⟩, ⟨u, 0, true, [⟨call, .seed⟩]⟩], [.ready]⟩ ∧
    ∃ hs, World.coarse (c.run hs) = ⟨[⟨thread0, 0, true, [⟨call, .seed⟩]⟩, ⟨u, 0, true, [⟨call, .seed⟩]⟩], [.ready]⟩ ∧
      callsFine hs = [((0, call), q), ((1, call), q)] := by
  dsimp only
  have h1 : Unmade ⟨[⟨thread0, 0, true, [], [⟨100, 100⟩]⟩, ⟨{ thread0 with tid := 101 }, 0, true, [], [⟨100, 101⟩]⟩], [.idle]⟩ := by
    constructor
    · intro w hw
      simp only [List.mem_cons, List.not_mem_nil, or_false] at hw
      rcases hw with rfl | rfl <;> exact ⟨rfl, by simp⟩
    · intro x hx
      exact List.mem_singleton.1 hx
  have h2 : ∀ w ∈ (World.mk [⟨thread0, 0, true, [], [⟨100, 100⟩]⟩, ⟨{ thread0 with tid := 101 }, 0, true, [], [⟨100, 101⟩]⟩] [.idle]).hands,
      w.thread.filters = [] := by
    intro w hw
    simp only [List.mem_cons, List.not_mem_nil, or_false] at hw
    rcases hw with rfl | rfl <;> rfl
  obtain ⟨hs, h3, h4⟩ := C104_refines _ h1 h2 q [.enter 0 call, .go 0, .enter 1 call, .go 1, .go 0, .go 1] (by simp)
  exact ⟨h1, h2, rfl, hs, h3.trans rfl, h4⟩

end Props
