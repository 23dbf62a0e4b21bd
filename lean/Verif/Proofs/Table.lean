import Verif.Spec.Table
import Verif.Proofs.Full
import Verif.Proofs.Init

/-!
# The promise table in `Model/Full`
-/
set_option autoImplicit false

namespace Spec
open Pledge Bpfvm Kernel

theorem next_alive (a : Act) (t : Thread) : (a.next t).1.alive = t.alive := by
  have sys : ∀ h d body, (∀ u : Thread, (body u).1.alive = u.alive) → (syscall h t d body).1.alive = t.alive := by
    intro h d body hb
    unfold syscall
    split
    · exact hb t
    · rfl
    · split <;> rfl
    · rfl
  unfold Act.next
  split
  · split <;> rfl
  · split <;> rfl
  · split
    · rfl
    · rfl
    · split
      · rfl
      · rfl
      · dsimp only
        split <;> (apply sys; intro u; unfold setNnp; split <;> rfl)
  · dsimp only
    split <;>
    · apply sys
      intro u
      unfold setSeccomp
      split
      · rfl
      · split
        · rfl
        · split
          · rfl
          · split <;> rfl

/-- `c'` is `c` with other thread states, in which nobody has come to life. -/
structure Dimmed (c c' : World) : Prop where
  cells : c'.cells = c.cells
  back : ∀ (k : Nat) w', c'.hands[k]? = some w' → ∃ w, c.hands[k]? = some w ∧ w'.mem = w.mem ∧ w'.errands = w.errands ∧
    w'.keys = w.keys ∧ (w'.thread.alive = true → w.thread.alive = true)
  length : c'.hands.length = c.hands.length

theorem Dimmed.refl (c : World) : Dimmed c c := ⟨rfl, fun _ w h => ⟨w, h, rfl, rfl, rfl, id⟩, rfl⟩

theorem dimmed_withThreads (c : World) (s : System) (hl : s.length = c.hands.length)
    (hs : ∀ (k : Nat) t', s[k]? = some t' → ∃ t, c.threads[k]? = some t ∧ (t'.alive = true → t.alive = true)) :
    Dimmed c (c.withThreads s) := by
  refine ⟨rfl, ?_, ?_⟩
  · intro k w' hw
    unfold World.withThreads at hw
    rw [List.getElem?_zipWith] at hw
    cases hc : c.hands[k]? with
    | none => rw [hc] at hw; cases hw
    | some w =>
      cases ht : s[k]? with
      | none => rw [hc, ht] at hw; cases hw
      | some t' =>
        rw [hc, ht] at hw
        cases hw
        obtain ⟨t, h1, h2⟩ := hs k t' ht
        refine ⟨w, rfl, rfl, rfl, rfl, ?_⟩
        unfold World.threads at h1
        rw [List.getElem?_map, hc] at h1
        cases h1
        exact h2
  · unfold World.withThreads
    simp [List.length_zipWith, hl]

theorem dimmed_reap (c : World) (i : Nat) (pid : BitVec 32) (o : Outcome) : Dimmed c (c.withThreads (reap c.threads i pid o)) := by
  refine dimmed_withThreads c _ ?_ ?_
  · rw [reap_length]; simp [World.threads]
  · intro k t' h
    obtain ⟨t, h1, _, _, _, _, h2⟩ := reap_get _ _ _ _ _ _ h
    exact ⟨t, h1, h2⟩

theorem dimmed_on (c : World) (i : Nat) (f : Thread → Thread × Option Outcome) : Dimmed c (c.withThreads (c.threads.on i f)) := by
  refine dimmed_withThreads c _ ?_ ?_
  · rw [on_len]; simp [World.threads]
  · intro k t' h
    exact on_alive _ _ _ _ _ h

/-- The end of a call. -/
theorem dimmed_ends (c : World) (i : Nat) (w : Hand) (r : PledgeRes) :
    Dimmed ⟨c.hands.set i { w with errands := w.errands.tail }, c.cells⟩ (c.ends i w r) := by
  unfold World.ends
  dsimp only
  split
  · exact dimmed_reap ..
  · exact .refl _

/-- What a step of the innermost call `f` of thread `i` does to sites and cells. -/
inductive GoesOn (c : World) (i : Nat) (w : Hand) (f : Errand) (rest : List Errand) : World → Prop where
  /-- waits for the table -/
  | wait (hs : f.site = .table) (hc : c.cells[w.mem]? = some .running) : GoesOn c i w f rest c
  /-- goes on without touching the cell -/
  | on (w' : Hand) (f' : Errand) (hs : f.site = .table ∧ c.cells[w.mem]? = some .ready ∨ f.site = .rest) (hs' : f'.site = .rest)
      (hm : w'.mem = w.mem) (ha : w'.thread.alive = w.thread.alive) (he : w'.errands = f' :: rest) :
      GoesOn c i w f rest ⟨c.hands.set i w', c.cells⟩
  /-- begins to make the table -/
  | begins (w' : Hand) (f' : Errand) (hs : f.site = .table) (hc : c.cells[w.mem]? = some .idle) (hs' : f'.site = .init)
      (hm : w'.mem = w.mem) (ha : w'.thread.alive = w.thread.alive) (he : w'.errands = f' :: rest) :
      GoesOn c i w f rest ⟨c.hands.set i w', c.cells.set w.mem .running⟩
  /-- has made the table -/
  | made (w' : Hand) (f' : Errand) (hs : f.site = .init) (hs' : f'.site = .rest)
      (hm : w'.mem = w.mem) (ha : w'.thread.alive = w.thread.alive) (he : w'.errands = f' :: rest) :
      GoesOn c i w f rest ⟨c.hands.set i w', c.cells.set w.mem .ready⟩
  /-- panics while making the table -/
  | burst (w' : Hand) (hs : f.site = .init)
      (hm : w'.mem = w.mem) (ha : w'.thread.alive = w.thread.alive) (he : w'.errands = rest) :
      GoesOn c i w f rest ⟨c.hands.set i w', c.cells.set w.mem .poisoned⟩
  /-- the call is over, and threads may have died; if it was making the table, the thread has died -/
  | over (w' : Hand) (c' : World) (hm : w'.mem = w.mem) (ha : w'.thread.alive = w.thread.alive) (he : w'.errands = rest)
      (hd : Dimmed ⟨c.hands.set i w', c.cells⟩ c')
      (hi : f.site = .init → ∀ u, c'.hands[i]? = some u → u.thread.alive = false) : GoesOn c i w f rest c'

theorem advance_goes {c : World} {i : Nat} {w : Hand} {f : Errand} {rest : List Errand} (hi : c.hands[i]? = some w)
    (hf : w.errands = f :: rest) (hmem : w.mem < c.cells.length) : GoesOn c i w f rest (c.advance i w f) := by
  have htail : w.errands.tail = rest := by rw [hf]; rfl
  have hlt : i < c.hands.length := (List.getElem?_eq_some_iff.1 hi).1
  have over : ∀ r, f.site ≠ .init → GoesOn c i w f rest (c.ends i w r) := by
    intro r hs
    exact .over { w with errands := w.errands.tail } _ rfl rfl htail (dimmed_ends c i w r) (fun h => absurd h hs)
  unfold World.advance
  cases hs : f.site with
  | table =>
    simp only
    split
    · rename_i h; exact .on _ _ (.inl ⟨hs, h⟩) rfl rfl rfl (by simp only [Hand.with, htail]; rfl)
    · rename_i h; exact .begins _ _ hs h rfl rfl rfl (by simp only [Hand.with, htail]; rfl)
    · exact over _ (by rw [hs]; simp)
    · rename_i h1 h2 h3
      refine .wait hs ?_
      rw [List.getElem?_eq_getElem hmem] at h1 h2 h3 ⊢
      cases hc : c.cells[w.mem] <;> simp_all
  | init =>
    simp only
    split
    · exact .made _ _ hs rfl rfl rfl (by simp only [Hand.with, htail]; rfl)
    · split
      · exact .made _ _ hs rfl rfl rfl (by simp only [Hand.with, htail]; rfl)
      · simp only [World.ends, PledgeRes.death]
        exact .burst _ hs rfl rfl htail
      · rename_i r hne hk
        have hdied : ∃ o, r = .died o := by
          unfold askKeys at hk
          dsimp only at hk
          split at hk
          · cases hk
          · split at hk
            · cases hk
            · cases hk; exact absurd rfl hne
            · cases hk; exact ⟨_, rfl⟩
          · split at hk
            · split at hk
              · cases hk
              · cases hk; exact absurd rfl hne
              · cases hk; exact ⟨_, rfl⟩
            · cases hk; exact ⟨_, rfl⟩
          · cases hk; exact ⟨_, rfl⟩
        obtain ⟨o, rfl⟩ := hdied
        refine .over { w with errands := w.errands.tail } _ rfl rfl htail (dimmed_ends c i w _) (fun _ u hu => ?_)
        simp only [World.ends, PledgeRes.death, World.withThreads, World.threads, List.getElem?_zipWith, List.getElem?_set, if_true, hlt] at hu
        cases hr : (reap ((c.hands.set i { w with errands := w.errands.tail }).map Hand.thread) i w.thread.pid o)[i]? with
        | none => rw [hr] at hu; cases hu
        | some t =>
          rw [hr] at hu
          cases hu
          simp only
          unfold reap at hr
          split at hr
          · simp only [List.getElem?_modify, List.getElem?_map, List.getElem?_set, if_true, hlt, Option.map_some, Option.some.injEq,
              Option.map_eq_map] at hr
            rw [← hr]
          · simp only [List.getElem?_map, List.getElem?_set, if_true, hlt, Option.map_some, Option.some.injEq] at hr
            rw [← hr]
  | rest =>
    simp only
    split
    · split
      · exact .on { w with keys := true } f (.inr hs) hs rfl rfl hf
      · exact over _ (by rw [hs]; simp)
    · split
      · rename_i t a hn
        refine .on _ { f with act := a, site := .rest } (.inr hs) rfl rfl ?_ (by simp only [Hand.with, htail])
        have := next_alive f.act w.thread
        rw [hn] at this
        exact this
      · rename_i t r hn
        refine .over { w with thread := t, errands := w.errands.tail } _ rfl ?_ htail (dimmed_ends c i { w with thread := t } r)
          (fun h => by rw [hs] at h; cases h)
        have := next_alive f.act w.thread
        rw [hn] at this
        exact this

/-! ## the invariant -/

structure Orderly (c : World) : Prop where
  mem : ∀ w ∈ c.hands, w.mem < c.cells.length
  past : ∀ w ∈ c.hands, ∀ f ∈ w.errands, f.site = .rest → c.cells[w.mem]? = some .ready
  now : ∀ w ∈ c.hands, Making w → c.cells[w.mem]? = some .running
  one : ∀ (j k : Nat) wj wk, c.hands[j]? = some wj → c.hands[k]? = some wk → wj.mem = wk.mem → Making wj → Making wk → j = k
  once : ∀ w ∈ c.hands, (w.errands.countP fun f => decide (f.site = .init)) ≤ 1

theorem orderly_unmade {c : World} (h : Unmade c) : Orderly c := by
  have none : ∀ w ∈ c.hands, ¬ Making w := by
    rintro w hw ⟨f, hf, _⟩
    rw [(h.1 w hw).1] at hf
    cases hf
  refine ⟨fun w hw => (h.1 w hw).2, ?_, fun w hw hm => absurd hm (none w hw), ?_, ?_⟩
  · intro w hw f hf
    rw [(h.1 w hw).1] at hf
    cases hf
  · intro j k wj wk hj _ _ hm
    exact absurd hm (none wj (List.mem_of_getElem? hj))
  · intro w hw
    rw [(h.1 w hw).1]
    simp

theorem Making.cons {w : Hand} {f : Errand} {rest : List Errand} (he : w.errands = f :: rest) :
    Making w ↔ f.site = .init ∨ ∃ g ∈ rest, g.site = .init := by
  unfold Making
  rw [he]
  simp

theorem Orderly.dimmed {c c' : World} (h : Orderly c) (hd : Dimmed c c') : Orderly c' := by
  have lift : ∀ w' ∈ c'.hands, ∃ w ∈ c.hands, w'.mem = w.mem ∧ w'.errands = w.errands := by
    intro w' hw
    obtain ⟨k, hk⟩ := List.getElem?_of_mem hw
    obtain ⟨w, h1, h2, h3, _⟩ := hd.back k w' hk
    exact ⟨w, List.mem_of_getElem? h1, h2, h3⟩
  refine ⟨?_, ?_, ?_, ?_, ?_⟩
  · intro w' hw
    obtain ⟨w, h1, h2, h3⟩ := lift w' hw
    rw [hd.cells, h2]; exact h.mem w h1
  · intro w' hw
    obtain ⟨w, h1, h2, h3⟩ := lift w' hw
    rw [hd.cells, h2, h3]; exact h.past w h1
  · intro w' hw hi
    obtain ⟨w, h1, h2, h3⟩ := lift w' hw
    unfold Making at hi
    rw [h3] at hi
    rw [hd.cells, h2]; exact h.now w h1 hi
  · intro j k wj wk hj hk hm ij ik
    obtain ⟨uj, a1, a2, a3, _⟩ := hd.back j wj hj
    obtain ⟨uk, b1, b2, b3, _⟩ := hd.back k wk hk
    unfold Making at ij ik
    rw [a3] at ij
    rw [b3] at ik
    exact h.one j k uj uk a1 b1 (by rw [← a2, ← b2, hm]) ij ik
  · intro w' hw
    obtain ⟨w, h1, h2, h3⟩ := lift w' hw
    rw [h3]; exact h.once w h1

/-- The cells with that of memory `m` changed or not. -/
def putCell (cells : List Cell) (m : Nat) : Option Cell → List Cell
  | some y => cells.set m y
  | none => cells

/-- A thread gets another stack of calls, and its cell another content. -/
theorem Orderly.change {c : World} (h : Orderly c) {i : Nat} {w w' : Hand} {x : Option Cell} (hi : c.hands[i]? = some w)
    (hm : w'.mem = w.mem)
    (hx : ∀ y, x = some y → c.cells[w.mem]? ≠ some .ready ∧ (∀ (k : Nat) u, c.hands[k]? = some u → u.mem = w.mem → k ≠ i → ¬ Making u))
    (hpast : ∀ f ∈ w'.errands, f.site = .rest → (x.or c.cells[w.mem]?) = some .ready)
    (hnow : Making w' → (x.or c.cells[w.mem]?) = some .running ∧
      (∀ (k : Nat) u, c.hands[k]? = some u → u.mem = w.mem → k ≠ i → ¬ Making u))
    (honce : (w'.errands.countP fun f => decide (f.site = .init)) ≤ 1) :
    Orderly ⟨c.hands.set i w', putCell c.cells w.mem x⟩ := by
  have hlt : i < c.hands.length := (List.getElem?_eq_some_iff.1 hi).1
  have hmw := h.mem w (List.mem_of_getElem? hi)
  have get : ∀ (k : Nat) u, (c.hands.set i w')[k]? = some u → (k = i ∧ u = w') ∨ (k ≠ i ∧ c.hands[k]? = some u) := by
    intro k u hu
    rw [List.getElem?_set] at hu
    split at hu
    · rename_i hk
      subst hk
      simp at hu
      exact .inl ⟨rfl, hu.symm⟩
    · rename_i hk
      exact .inr ⟨fun e => hk e.symm, hu⟩
  have len : (putCell c.cells w.mem x).length = c.cells.length := by
    cases x <;> simp [putCell]
  have cell : ∀ m, (putCell c.cells w.mem x)[m]? =
      if m = w.mem then x.or c.cells[w.mem]? else c.cells[m]? := by
    intro m
    cases x with
    | none =>
      simp only [Option.none_or, putCell]
      split
      · rename_i h; rw [h]
      · rfl
    | some y =>
      simp only [Option.some_or, putCell, List.getElem?_set]
      by_cases hmm : m = w.mem
      · subst hmm; simp [hmw]
      · simp [hmm, Ne.symm hmm]
  refine ⟨?_, ?_, ?_, ?_, ?_⟩
  · intro u hu
    obtain ⟨k, hk⟩ := List.getElem?_of_mem hu
    simp only at hk ⊢
    rw [len]
    rcases get k u hk with ⟨_, rfl⟩ | ⟨_, hk⟩
    · rw [hm]; exact hmw
    · exact h.mem u (List.mem_of_getElem? hk)
  · intro u hu f hf hs
    obtain ⟨k, hk⟩ := List.getElem?_of_mem hu
    simp only at hk ⊢
    rw [cell]
    rcases get k u hk with ⟨_, rfl⟩ | ⟨hki, hk⟩
    · rw [if_pos hm]; exact hpast f hf hs
    · have := h.past u (List.mem_of_getElem? hk) f hf hs
      split
      · rename_i hmm
        rw [hmm] at this
        cases x with
        | none => exact this
        | some y => exact absurd this (hx y rfl).1
      · exact this
  · intro u hu hmk
    obtain ⟨k, hk⟩ := List.getElem?_of_mem hu
    simp only at hk ⊢
    rw [cell]
    rcases get k u hk with ⟨_, rfl⟩ | ⟨hki, hk⟩
    · rw [if_pos hm]; exact (hnow hmk).1
    · have := h.now u (List.mem_of_getElem? hk) hmk
      split
      · rename_i hmm
        rw [hmm] at this
        cases x with
        | none => exact this
        | some y => exact absurd hmk ((hx y rfl).2 k u hk hmm hki)
      · exact this
  · intro j k wj wk hj hk hmm ij ik
    rcases get j wj hj with ⟨rfl, rfl⟩ | ⟨hji, hj'⟩ <;> rcases get k wk hk with ⟨rfl, rfl⟩ | ⟨hki, hk'⟩
    · rfl
    · exact absurd ik ((hnow ij).2 k wk hk' (by rw [← hmm, hm]) hki)
    · exact absurd ij ((hnow ik).2 j wj hj' (by rw [hmm, hm]) hji)
    · exact h.one j k wj wk hj' hk' hmm ij ik
  · intro u hu
    obtain ⟨k, hk⟩ := List.getElem?_of_mem hu
    rcases get k u hk with ⟨_, rfl⟩ | ⟨hki, hk⟩
    · exact honce
    · exact h.once u (List.mem_of_getElem? hk)

theorem Orderly.others {c : World} (h : Orderly c) {i : Nat} {w : Hand} (hi : c.hands[i]? = some w) (hm : Making w) (k : Nat) (u : Hand)
    (hk : c.hands[k]? = some u) (hmm : u.mem = w.mem) (hki : k ≠ i) : ¬ Making u :=
  fun hu => hki (h.one k i u w hk hi hmm hu hm)

theorem count_zero {rest : List Errand} (h : ¬ ∃ g ∈ rest, g.site = .init) : (rest.countP fun f => decide (f.site = .init)) = 0 := by
  rw [List.countP_eq_zero]
  intro g hg hs
  exact h ⟨g, hg, of_decide_eq_true hs⟩

theorem Orderly.goes {c : World} (h : Orderly c) {i : Nat} {w : Hand} {f : Errand} {rest : List Errand} (hi : c.hands[i]? = some w)
    (hf : w.errands = f :: rest) {c' : World} (hg : GoesOn c i w f rest c') : Orderly c' := by
  have hw := List.mem_of_getElem? hi
  have honce := h.once w hw
  rw [hf] at honce
  have hrest : (rest.countP fun f => decide (f.site = .init)) ≤ 1 := by
    rw [List.countP_cons] at honce
    omega
  have below : (∃ g ∈ rest, g.site = .init) → Making w := fun h => (Making.cons hf).2 (.inr h)
  have single : f.site = .init → ¬ ∃ g ∈ rest, g.site = .init := by
    rintro hs ⟨g, hg, hgs⟩
    have : 0 < rest.countP fun f => decide (f.site = .init) := by
      rw [List.countP_pos_iff]
      exact ⟨g, hg, by simp [hgs]⟩
    rw [List.countP_cons, if_pos (by simp [hs])] at honce
    omega
  have old : ∀ g ∈ rest, g.site = .rest → c.cells[w.mem]? = some .ready :=
    fun g hg hs => h.past w hw g (by rw [hf]; exact List.mem_cons_of_mem _ hg) hs
  cases hg with
  | wait => exact h
  | on w' f' hs hs' hm ha he =>
    refine h.change (x := none) hi hm (by simp) ?_ ?_ ?_
    · intro g hg hgs
      rw [he] at hg
      rcases List.mem_cons.1 hg with rfl | hg
      · rcases hs with ⟨_, hc⟩ | hs
        · exact hc
        · exact h.past w hw f (by rw [hf]; simp) hs
      · exact old g hg hgs
    · intro hmk
      rcases (Making.cons he).1 hmk with h' | h'
      · rw [hs'] at h'; cases h'
      · exact ⟨h.now w hw (below h'), h.others hi (below h')⟩
    · rw [he, List.countP_cons, if_neg (by simp [hs'])]
      exact hrest
  | begins w' f' hs hc hs' hm ha he =>
    have nobody : ∀ (k : Nat) u, c.hands[k]? = some u → u.mem = w.mem → ¬ Making u := by
      intro k u hk hmm hmk
      have := h.now u (List.mem_of_getElem? hk) hmk
      rw [hmm, hc] at this
      cases this
    refine h.change (x := some .running) hi hm ?_ ?_ ?_ ?_
    · intro y _
      refine ⟨by rw [hc]; simp, fun k u hk hmm _ => nobody k u hk hmm⟩
    · intro g hg hgs
      rw [he] at hg
      rcases List.mem_cons.1 hg with rfl | hg
      · rw [hs'] at hgs; cases hgs
      · have := old g hg hgs
        rw [hc] at this
        cases this
    · intro _
      exact ⟨rfl, fun k u hk hmm _ => nobody k u hk hmm⟩
    · rw [he, List.countP_cons, count_zero (fun h' => nobody i w hi rfl (below h'))]
      split <;> omega
  | made w' f' hs hs' hm ha he =>
    have hmk : Making w := (Making.cons hf).2 (.inl hs)
    refine h.change (x := some .ready) hi hm ?_ (fun _ _ _ => rfl) ?_ ?_
    · intro y _
      exact ⟨by rw [h.now w hw hmk]; simp, h.others hi hmk⟩
    · intro hmk'
      rcases (Making.cons he).1 hmk' with h' | h'
      · rw [hs'] at h'; cases h'
      · exact absurd h' (single hs)
    · rw [he, List.countP_cons, if_neg (by simp [hs'])]
      exact hrest
  | burst w' hs hm ha he =>
    have hmk : Making w := (Making.cons hf).2 (.inl hs)
    refine h.change (x := some .poisoned) hi hm ?_ ?_ ?_ ?_
    · intro y _
      exact ⟨by rw [h.now w hw hmk]; simp, h.others hi hmk⟩
    · intro g hg hgs
      rw [he] at hg
      have := old g hg hgs
      rw [h.now w hw hmk] at this
      cases this
    · intro hmk'
      unfold Making at hmk'
      rw [he] at hmk'
      exact absurd hmk' (single hs)
    · rw [he]; exact hrest
  | over w' _ hm ha he hd _ =>
    refine Orderly.dimmed (h.change (x := none) hi hm (by simp) ?_ ?_ ?_) hd
    · intro g hg hgs
      rw [he] at hg
      exact old g hg hgs
    · intro hmk
      unfold Making at hmk
      rw [he] at hmk
      exact ⟨h.now w hw (below hmk), h.others hi (below hmk)⟩
    · rw [he]; exact hrest

/-- A new thread, in an old memory without calls, or in a new memory. -/
theorem Orderly.born {c : World} (h : Orderly c) (w' : Hand) (extra : List Cell)
    (hm : w'.mem < (c.cells ++ extra).length)
    (hn : w'.errands = [] ∨ w'.mem = c.cells.length)
    (hpast : ∀ f ∈ w'.errands, f.site = .rest → (c.cells ++ extra)[w'.mem]? = some .ready)
    (hnow : Making w' → (c.cells ++ extra)[w'.mem]? = some .running)
    (honce : (w'.errands.countP fun f => decide (f.site = .init)) ≤ 1) : Orderly ⟨c.hands ++ [w'], c.cells ++ extra⟩ := by
  have cell : ∀ w ∈ c.hands, (c.cells ++ extra)[w.mem]? = c.cells[w.mem]? := by
    intro w hw
    rw [List.getElem?_append_left (h.mem w hw)]
  have get : ∀ (k : Nat) u, (c.hands ++ [w'])[k]? = some u → c.hands[k]? = some u ∨ k = c.hands.length ∧ u = w' := by
    intro k u hu
    rw [List.getElem?_append] at hu
    split at hu
    · exact .inl hu
    · rw [List.getElem?_singleton] at hu
      split at hu
      · cases hu; exact .inr ⟨by omega, rfl⟩
      · cases hu
  have clash : ∀ w ∈ c.hands, w.mem = w'.mem → ¬ Making w' := by
    rintro w hw hmm ⟨f, hf, _⟩
    rcases hn with h0 | h0
    · rw [h0] at hf; cases hf
    · have := h.mem w hw
      omega
  refine ⟨?_, ?_, ?_, ?_, ?_⟩
  · intro u hu
    rcases List.mem_append.1 hu with hu | hu
    · have := h.mem u hu
      simp only [List.length_append]
      omega
    · rw [List.mem_singleton.1 hu]; exact hm
  · intro u hu
    rcases List.mem_append.1 hu with hu | hu
    · simp only [cell u hu]; exact h.past u hu
    · rw [List.mem_singleton.1 hu]; exact hpast
  · intro u hu
    rcases List.mem_append.1 hu with hu | hu
    · simp only [cell u hu]; exact h.now u hu
    · rw [List.mem_singleton.1 hu]; exact hnow
  · intro j k wj wk hj hk hmm ij ik
    rcases get j wj hj with hj' | ⟨rfl, rfl⟩ <;> rcases get k wk hk with hk' | ⟨rfl, rfl⟩
    · exact h.one j k wj wk hj' hk' hmm ij ik
    · exact absurd ik (clash wj (List.mem_of_getElem? hj') hmm)
    · exact absurd ij (clash wk (List.mem_of_getElem? hk') hmm.symm)
    · rfl
  · intro u hu
    rcases List.mem_append.1 hu with hu | hu
    · exact h.once u hu
    · rw [List.mem_singleton.1 hu]; exact honce

/-- The threads of memory `m` die. -/
theorem dimmed_mem (c : World) (m : Nat) :
    Dimmed c ⟨c.hands.map fun u => if u.mem = m then { u with thread := { u.thread with alive := false } } else u, c.cells⟩ := by
  refine ⟨rfl, ?_, by simp⟩
  intro k w' hw
  rw [List.getElem?_map] at hw
  cases hk : c.hands[k]? with
  | none => rw [hk] at hw; cases hw
  | some w =>
    rw [hk] at hw
    simp only [Option.map_some, Option.some.injEq] at hw
    subst hw
    refine ⟨w, rfl, ?_⟩
    split <;> simp

theorem dimmed_call (c : World) (i : Nat) (d : SeccompData) (h : Option Int) : Dimmed c (c.withThreads (c.threads.step (.call i d h))) := by
  unfold System.step
  exact dimmed_on ..

theorem dimmed_other (c : World) (op : Op) : Dimmed c (c.step (.other op)) := by
  cases op with
  | pledge => exact .refl c
  | spawn => exact .refl c
  | _ => simp only [World.step, System.step]; exact dimmed_on ..

theorem Orderly.step {c : World} (h : Orderly c) (m : Happening) : Orderly (c.step m) := by
  cases m with
  | enter i b env q seed ps v =>
    simp only [World.step]
    cases hi : c.hands[i]? with
    | none => exact h
    | some w =>
      simp only
      split
      · have hw := List.mem_of_getElem? hi
        refine h.change (x := none) (w' := { w with errands := _ }) hi rfl (by simp) ?_ ?_ ?_
        · intro g hg hgs
          rcases List.mem_cons.1 hg with rfl | hg
          · cases hgs
          · exact h.past w hw g hg hgs
        · intro hmk
          have : Making w := by
            obtain ⟨g, hg, hgs⟩ := hmk
            rcases List.mem_cons.1 hg with rfl | hg
            · cases hgs
            · exact ⟨g, hg, hgs⟩
          exact ⟨h.now w hw this, h.others hi this⟩
        · have := h.once w hw
          simp only [List.countP_cons]
          simpa using this
      · exact h
  | go i =>
    simp only [World.step]
    cases hi : c.hands[i]? with
    | none => exact h
    | some w =>
      simp only
      cases hf : w.errands with
      | nil => exact h
      | cons f rest =>
        simp only
        split
        · exact h.goes hi hf (advance_goes hi hf (h.mem w (List.mem_of_getElem? hi)))
        · exact h
  | leave i =>
    simp only [World.step]
    cases hi : c.hands[i]? with
    | none => exact h
    | some w =>
      simp only
      split
      · have hw := List.mem_of_getElem? hi
        refine h.change (x := none) (w' := { w with errands := _ }) hi rfl (by simp) ?_ ?_ ?_
        · intro g hg hgs
          exact h.past w hw g (List.mem_of_mem_tail hg) hgs
        · intro hmk
          have : Making w := by
            obtain ⟨g, hg, hgs⟩ := hmk
            exact ⟨g, List.mem_of_mem_tail hg, hgs⟩
          exact ⟨h.now w hw this, h.others hi this⟩
        · have := h.once w hw
          refine Nat.le_trans ?_ this
          exact (List.tail_sublist _).countP_le
      · exact h
  | fork i d h' pid tid =>
    simp only [World.step]
    cases hi : c.hands[i]? with
    | none => exact h
    | some w =>
      simp only
      have hw := List.mem_of_getElem? hi
      have hcell : (c.cells ++ [c.cells[w.mem]?.getD .idle])[c.cells.length]? = c.cells[w.mem]? := by
        rw [List.getElem?_append_right (by simp), List.getElem?_eq_getElem (h.mem w hw)]
        simp
      split
      · refine h.born _ _ (by simp) (.inr rfl) ?_ ?_ (h.once w hw)
        · intro f hf hs
          rw [hcell]
          exact h.past w hw f hf hs
        · intro hmk
          rw [hcell]
          exact h.now w hw hmk
      · exact h.dimmed (dimmed_call ..)
  | clone i d h' tid =>
    simp only [World.step]
    cases hi : c.hands[i]? with
    | none => exact h
    | some w =>
      simp only
      have hw := List.mem_of_getElem? hi
      split
      · have := h.born ⟨{ w.thread with tid := tid }, w.mem, false, [], ⟨w.thread.pid, tid⟩ :: w.line⟩ []
          (by simpa using h.mem w hw) (.inl rfl) (by simp) (by rintro ⟨_, hf, _⟩; cases hf) (by simp)
        rw [List.append_nil] at this
        exact this
      · exact h.dimmed (dimmed_call ..)
  | exec i d h' =>
    simp only [World.step]
    cases hi : c.hands[i]? with
    | none => exact h
    | some w =>
      simp only
      split
      · exact (h.dimmed (dimmed_mem c w.mem)).born _ _ (by simp) (.inl rfl) (by simp) (by rintro ⟨_, hf, _⟩; cases hf) (by simp)
      · exact h.dimmed (dimmed_call ..)
  | other op => exact h.dimmed (dimmed_other c op)

theorem Orderly.run {c : World} (h : Orderly c) (hs : List Happening) : Orderly (c.run hs) := by
  induction hs generalizing c with
  | nil => exact h
  | cons m hs ih => exact ih (h.step m)

/-! ## shapes of steps -/

/-- What a happening does to memories, sites and cells. -/
inductive Effect (c : World) : Happening → World → Prop where
  | dim {m : Happening} {c' : World} (h : Dimmed c c') : Effect c m c'
  | goes {i : Nat} {w : Hand} {f : Errand} {rest : List Errand} {c' : World} (hi : c.hands[i]? = some w) (hf : w.errands = f :: rest)
      (ha : w.thread.alive = true) (h : GoesOn c i w f rest c') : Effect c (.go i) c'
  | push {i : Nat} {b : Build} {env : Env} {q : Nat → Query} {seed : Seed} {ps : List Promise} {v : SeccompReturn} {w : Hand} {f : Errand}
      (hi : c.hands[i]? = some w) (hs : f.site = .table) :
      Effect c (.enter i b env q seed ps v) ⟨c.hands.set i { w with errands := f :: w.errands }, c.cells⟩
  | pop {i : Nat} {w : Hand} (hi : c.hands[i]? = some w) :
      Effect c (.leave i) ⟨c.hands.set i { w with errands := w.errands.tail }, c.cells⟩
  | forked {i : Nat} {d : SeccompData} {h : Option Int} {pid tid : BitVec 32} {w w' : Hand} (hi : c.hands[i]? = some w)
      (ha : w.thread.alive = true) (ha' : w'.thread.alive = true) (hm : w'.mem = c.cells.length) (he : w'.errands = w.errands) :
      Effect c (.fork i d h pid tid) ⟨c.hands ++ [w'], c.cells ++ [c.cells[w.mem]?.getD .idle]⟩
  | cloned {i : Nat} {d : SeccompData} {h : Option Int} {tid : BitVec 32} {w w' : Hand} (hi : c.hands[i]? = some w)
      (hm : w'.mem = w.mem) (he : w'.errands = []) : Effect c (.clone i d h tid) ⟨c.hands ++ [w'], c.cells⟩
  | execed {i : Nat} {d : SeccompData} {h : Option Int} {w' : Hand} {c0 : World} (h0 : Dimmed c c0)
      (hm : w'.mem = c.cells.length) (he : w'.errands = []) : Effect c (.exec i d h) ⟨c0.hands ++ [w'], c.cells ++ [.idle]⟩

theorem step_is {c : World} (h : Orderly c) (m : Happening) : Effect c m (c.step m) := by
  cases m with
  | enter i b env q seed ps v =>
    simp only [World.step]
    split
    · rename_i w hi
      split
      · exact .push hi rfl
      · exact .dim (.refl c)
    · exact .dim (.refl c)
  | go i =>
    simp only [World.step]
    split
    · rename_i w hi
      split
      · rename_i f rest hf
        split
        · rename_i ha
          exact .goes hi hf ha (advance_goes hi hf (h.mem w (List.mem_of_getElem? hi)))
        · exact .dim (.refl c)
      · exact .dim (.refl c)
    · exact .dim (.refl c)
  | leave i =>
    simp only [World.step]
    split
    · rename_i w hi
      split
      · exact .pop hi
      · exact .dim (.refl c)
    · exact .dim (.refl c)
  | fork i d h' pid tid =>
    simp only [World.step]
    split
    · rename_i w hi
      split
      · rename_i ha; exact .forked hi ha.1 ha.1 rfl rfl
      · exact .dim (dimmed_call ..)
    · exact .dim (.refl c)
  | clone i d h' tid =>
    simp only [World.step]
    split
    · rename_i w hi
      split
      · exact .cloned hi rfl rfl
      · exact .dim (dimmed_call ..)
    · exact .dim (.refl c)
  | exec i d h' =>
    simp only [World.step]
    split
    · rename_i w hi
      split
      · exact .execed (dimmed_mem c w.mem) rfl rfl
      · exact .dim (dimmed_call ..)
    · exact .dim (.refl c)
  | other op => exact .dim (dimmed_other c op)

theorem get_set {l : List Hand} {i : Nat} {w' : Hand} {k : Nat} {u : Hand} (h : (l.set i w')[k]? = some u) :
    (k = i ∧ u = w') ∨ (k ≠ i ∧ l[k]? = some u) := by
  rw [List.getElem?_set] at h
  split at h
  · rename_i hk
    subst hk
    split at h
    · cases h; exact .inl ⟨rfl, rfl⟩
    · cases h
  · rename_i hk
    exact .inr ⟨fun e => hk e.symm, h⟩

theorem get_snoc {l : List Hand} {w' : Hand} {k : Nat} {u : Hand} (h : (l ++ [w'])[k]? = some u) :
    l[k]? = some u ∨ k = l.length ∧ u = w' := by
  rw [List.getElem?_append] at h
  split at h
  · exact .inl h
  · rw [List.getElem?_singleton] at h
    split at h
    · cases h; exact .inr ⟨by omega, rfl⟩
    · cases h

theorem Dimmed.making {c c' : World} (h : Dimmed c c') {k : Nat} {w' : Hand} (hk : c'.hands[k]? = some w') (ha : w'.thread.alive = true)
    (hm : Making w') : ∃ w, c.hands[k]? = some w ∧ w.mem = w'.mem ∧ w.thread.alive = true ∧ Making w := by
  obtain ⟨w, h1, h2, h3, _, h4⟩ := h.back k w' hk
  unfold Making at hm ⊢
  rw [h3] at hm
  exact ⟨w, h1, h2.symm, h4 ha, hm⟩

/-- Who is making a table after a step was doing so before, or has begun, or is in a new memory. -/
theorem making_step {c c' : World} {m : Happening} (hs : Effect c m c') {k : Nat} {w' : Hand} (hk : c'.hands[k]? = some w')
    (ha : w'.thread.alive = true) (hm : Making w') :
    (∃ w, c.hands[k]? = some w ∧ w.mem = w'.mem ∧ w.thread.alive = true ∧ Making w) ∨ c.cells[w'.mem]? = some .idle ∨
    w'.mem = c.cells.length := by
  cases hs with
  | dim h => exact .inl (h.making hk ha hm)
  | goes hi hf ha0 hg =>
    rename_i i w f rest
    have below : (∃ g ∈ rest, g.site = .init) → Making w := fun h => (Making.cons hf).2 (.inr h)
    cases hg with
    | wait => exact .inl ⟨w', hk, rfl, ha, hm⟩
    | on w1 f' h1 hs' hmm haa he =>
      rcases get_set hk with ⟨rfl, rfl⟩ | ⟨_, hk⟩
      · rcases (Making.cons he).1 hm with h | h
        · rw [hs'] at h; cases h
        · exact .inl ⟨w, hi, hmm.symm, ha0, below h⟩
      · exact .inl ⟨w', hk, rfl, ha, hm⟩
    | begins w1 f' h1 hc hs' hmm haa he =>
      rcases get_set hk with ⟨rfl, rfl⟩ | ⟨_, hk⟩
      · exact .inr (.inl (by rw [hmm]; exact hc))
      · exact .inl ⟨w', hk, rfl, ha, hm⟩
    | made w1 f' h1 hs' hmm haa he =>
      rcases get_set hk with ⟨rfl, rfl⟩ | ⟨_, hk⟩
      · rcases (Making.cons he).1 hm with h | h
        · rw [hs'] at h; cases h
        · exact .inl ⟨w, hi, hmm.symm, ha0, below h⟩
      · exact .inl ⟨w', hk, rfl, ha, hm⟩
    | burst w1 h1 hmm haa he =>
      rcases get_set hk with ⟨rfl, rfl⟩ | ⟨_, hk⟩
      · unfold Making at hm
        rw [he] at hm
        exact .inl ⟨w, hi, hmm.symm, ha0, below hm⟩
      · exact .inl ⟨w', hk, rfl, ha, hm⟩
    | over w1 _ hmm haa he hd _ =>
      obtain ⟨u, h1, h2, h3, h4⟩ := hd.making hk ha hm
      rcases get_set h1 with ⟨rfl, rfl⟩ | ⟨_, h1⟩
      · unfold Making at h4
        rw [he] at h4
        exact .inl ⟨w, hi, by rw [← h2, hmm], ha0, below h4⟩
      · exact .inl ⟨u, h1, h2, h3, h4⟩
  | push hi hs =>
    rename_i i b env q seed ps v w f
    rcases get_set hk with ⟨rfl, rfl⟩ | ⟨_, hk⟩
    · rcases (Making.cons (w := { w with errands := f :: w.errands }) rfl).1 hm with h | h
      · rw [hs] at h; cases h
      · exact .inl ⟨w, hi, rfl, ha, h⟩
    · exact .inl ⟨w', hk, rfl, ha, hm⟩
  | pop hi =>
    rename_i i w
    rcases get_set hk with ⟨rfl, rfl⟩ | ⟨_, hk⟩
    · obtain ⟨g, hg, hgs⟩ := hm
      exact .inl ⟨w, hi, rfl, ha, g, List.mem_of_mem_tail hg, hgs⟩
    · exact .inl ⟨w', hk, rfl, ha, hm⟩
  | forked hi ha0 _ hmm he =>
    rcases get_snoc hk with hk | ⟨rfl, rfl⟩
    · exact .inl ⟨w', hk, rfl, ha, hm⟩
    · exact .inr (.inr hmm)
  | cloned hi hmm he =>
    rcases get_snoc hk with hk | ⟨rfl, rfl⟩
    · exact .inl ⟨w', hk, rfl, ha, hm⟩
    · obtain ⟨g, hg, _⟩ := hm
      rw [he] at hg
      cases hg
  | execed h0 hmm he =>
    rcases get_snoc hk with hk | ⟨rfl, rfl⟩
    · exact .inl (h0.making hk ha hm)
    · exact .inr (.inr hmm)

/-- How the content of an old cell can change. -/
theorem cell_step {c c' : World} {e : Happening} (hs : Effect c e c') (ho : Orderly c) {m : Nat} {x : Cell} (hx : c.cells[m]? = some x) :
    c'.cells[m]? = some x ∨
    (x = .idle ∧ c'.cells[m]? = some .running ∧ ∃ w' ∈ c'.hands, w'.mem = m ∧ w'.thread.alive = true ∧ Making w') ∨
    (x = .running ∧ (c'.cells[m]? = some .ready ∨ c'.cells[m]? = some .poisoned) ∧
      ∃ w ∈ c.hands, w.mem = m ∧ w.thread.alive = true ∧ Making w) := by
  have hlt : m < c.cells.length := (List.getElem?_eq_some_iff.1 hx).1
  cases hs with
  | dim h => rw [h.cells]; exact .inl hx
  | goes hi hf ha0 hg =>
    rename_i i w f rest
    have hi' : i < c.hands.length := (List.getElem?_eq_some_iff.1 hi).1
    have hw := List.mem_of_getElem? hi
    cases hg with
    | wait => exact .inl hx
    | on => exact .inl hx
    | begins w1 f' h1 hc hs' hmm haa he =>
      by_cases hm : w.mem = m
      · subst hm
        rw [hx] at hc
        cases hc
        refine .inr (.inl ⟨rfl, by simp [hlt], w1, List.mem_of_getElem? (i := i) (by simp [hi']), hmm, by rw [haa]; exact ha0,
          (Making.cons he).2 (.inl hs')⟩)
      · left
        simp only [List.getElem?_set, hm, if_false]
        exact hx
    | made w1 f' h1 hs' hmm haa he =>
      by_cases hm : w.mem = m
      · subst hm
        have hmk : Making w := (Making.cons hf).2 (.inl h1)
        have := ho.now w hw hmk
        rw [hx] at this
        cases this
        exact .inr (.inr ⟨rfl, .inl (by simp [hlt]), w, hw, rfl, ha0, hmk⟩)
      · left
        simp only [List.getElem?_set, hm, if_false]
        exact hx
    | burst w1 h1 hmm haa he =>
      by_cases hm : w.mem = m
      · subst hm
        have hmk : Making w := (Making.cons hf).2 (.inl h1)
        have := ho.now w hw hmk
        rw [hx] at this
        cases this
        exact .inr (.inr ⟨rfl, .inr (by simp [hlt]), w, hw, rfl, ha0, hmk⟩)
      · left
        simp only [List.getElem?_set, hm, if_false]
        exact hx
    | over w1 _ hmm haa he hd _ => rw [hd.cells]; exact .inl hx
  | push => exact .inl hx
  | pop => exact .inl hx
  | forked => left; simp only [List.getElem?_append, hlt, if_true]; exact hx
  | cloned => exact .inl hx
  | execed => left; simp only [List.getElem?_append, hlt, if_true]; exact hx

theorem abandoned_step {c : World} (ho : Orderly c) (e : Happening) {m : Nat} (h : Abandoned c m) : Abandoned (c.step e) m := by
  have hs := step_is ho e
  have hlt : m < c.cells.length := (List.getElem?_eq_some_iff.1 h.1).1
  refine ⟨?_, fun w' hw hm ha hmk => ?_⟩
  · rcases cell_step hs ho h.1 with h1 | ⟨h1, _⟩ | ⟨_, _, w, hw, hm, ha, hmk⟩
    · exact h1
    · cases h1
    · exact absurd hmk (h.2 w hw hm ha)
  · obtain ⟨k, hk⟩ := List.getElem?_of_mem hw
    rcases making_step hs hk ha hmk with ⟨w, h1, h2, h3, h4⟩ | h1 | h1
    · exact h.2 w (List.mem_of_getElem? h1) (by rw [h2, hm]) h3 h4
    · rw [hm, h.1] at h1; cases h1
    · omega

/-- What happens to a living thread that is making the table: it goes on doing so, or has done it, or jumps out of it, or dies. -/
theorem maker_step {c c' : World} {e : Happening} (hs : Effect c e c') (ho : Orderly c) {j : Nat} {w : Hand} (hj : c.hands[j]? = some w)
    (ha : w.thread.alive = true) (hm : Making w) :
    ∃ w', c'.hands[j]? = some w' ∧ w'.mem = w.mem ∧
      (w'.thread.alive = false ∨ Making w' ∨ (e = .leave j ∧ ∃ f, w.errands.head? = some f ∧ f.site = .init) ∨
        c'.cells[w.mem]? ≠ some .running) := by
  have hlt : j < c.hands.length := (List.getElem?_eq_some_iff.1 hj).1
  have hmem := ho.mem w (List.mem_of_getElem? hj)
  have same : ∀ (c' : World), c'.hands[j]? = some w → ∃ w', c'.hands[j]? = some w' ∧ w'.mem = w.mem ∧
      (w'.thread.alive = false ∨ Making w' ∨ (e = .leave j ∧ ∃ f, w.errands.head? = some f ∧ f.site = .init) ∨
        c'.cells[w.mem]? ≠ some .running) := fun c' h => ⟨w, h, rfl, .inr (.inl hm)⟩
  have dims : ∀ {c0 c1 : World}, Dimmed c0 c1 → c0.hands[j]? = some w → ∃ w', c1.hands[j]? = some w' ∧ w'.mem = w.mem ∧ Making w' := by
    intro c0 c1 hd h0
    have hl : j < c1.hands.length := by rw [hd.length]; exact (List.getElem?_eq_some_iff.1 h0).1
    obtain ⟨u, h1, h2, h3, _⟩ := hd.back j _ (List.getElem?_eq_getElem hl)
    rw [h0] at h1
    cases h1
    refine ⟨_, List.getElem?_eq_getElem hl, h2, ?_⟩
    unfold Making at hm ⊢
    rw [h3]
    exact hm
  cases hs with
  | dim h =>
    obtain ⟨w', h1, h2, h3⟩ := dims h hj
    exact ⟨w', h1, h2, .inr (.inl h3)⟩
  | goes hi hf ha0 hg =>
    rename_i i u f rest
    by_cases hij : i = j
    · subst hij
      rw [hj] at hi
      cases hi
      cases hg with
      | wait => exact same _ hj
      | on w1 f' h1 hs' hmm haa he =>
        refine ⟨w1, by simp [hlt], hmm, .inr (.inl ?_)⟩
        rcases (Making.cons hf).1 hm with h | h
        · rcases h1 with ⟨h1, _⟩ | h1 <;> (rw [h] at h1; cases h1)
        · exact (Making.cons he).2 (.inr h)
      | begins w1 f' h1 hc hs' hmm haa he => exact ⟨w1, by simp [hlt], hmm, .inr (.inl ((Making.cons he).2 (.inl hs')))⟩
      | made w1 f' h1 hs' hmm haa he => exact ⟨w1, by simp [hlt], hmm, .inr (.inr (.inr (by simp [hmem])))⟩
      | burst w1 h1 hmm haa he => exact ⟨w1, by simp [hlt], hmm, .inr (.inr (.inr (by simp [hmem])))⟩
      | over w1 _ hmm haa he hd hdead =>
        have hl : i < c'.hands.length := by rw [hd.length]; simpa using hlt
        obtain ⟨x, h1, h2, h3, _⟩ := hd.back i _ (List.getElem?_eq_getElem hl)
        refine ⟨_, List.getElem?_eq_getElem hl, ?_⟩
        rcases get_set h1 with ⟨_, rfl⟩ | ⟨h, _⟩
        · refine ⟨by rw [h2, hmm], ?_⟩
          rcases (Making.cons hf).1 hm with h | h
          · exact .inl (hdead h _ (List.getElem?_eq_getElem hl))
          · refine .inr (.inl ?_)
            unfold Making
            rw [h3, he]
            exact h
        · exact absurd rfl h
    · have hset : ∀ w1 : Hand, (c.hands.set i w1)[j]? = some w := by
        intro w1
        rw [List.getElem?_set, if_neg hij]
        exact hj
      cases hg with
      | wait => exact same _ hj
      | on => exact same _ (hset _)
      | begins => exact same _ (hset _)
      | made => exact same _ (hset _)
      | burst => exact same _ (hset _)
      | over w1 _ hmm haa he hd _ =>
        obtain ⟨w', h1, h2, h3⟩ := dims hd (hset _)
        exact ⟨w', h1, h2, .inr (.inl h3)⟩
  | push hi hs =>
    rename_i i b env q seed ps v u f
    by_cases hij : i = j
    · subst hij
      rw [hj] at hi
      cases hi
      refine ⟨{ w with errands := f :: w.errands }, by simp [hlt], rfl, .inr (.inl ?_)⟩
      obtain ⟨g, hg, hgs⟩ := hm
      exact ⟨g, List.mem_cons_of_mem _ hg, hgs⟩
    · exact same _ (by simp only [List.getElem?_set, if_neg hij]; exact hj)
  | pop hi =>
    rename_i i u
    by_cases hij : i = j
    · subst hij
      rw [hj] at hi
      cases hi
      refine ⟨{ w with errands := w.errands.tail }, by simp [hlt], rfl, ?_⟩
      cases hf : w.errands with
      | nil => obtain ⟨g, hg, _⟩ := hm; rw [hf] at hg; cases hg
      | cons f rest =>
        rcases (Making.cons hf).1 hm with h | h
        · exact .inr (.inr (.inl ⟨rfl, f, rfl, h⟩))
        · exact .inr (.inl h)
    · exact same _ (by simp only [List.getElem?_set, if_neg hij]; exact hj)
  | forked => exact same _ (by simp only [List.getElem?_append, hlt, if_true]; exact hj)
  | cloned => exact same _ (by simp only [List.getElem?_append, hlt, if_true]; exact hj)
  | execed h0 hmm he =>
    obtain ⟨w', h1, h2, h3⟩ := dims h0 hj
    refine ⟨w', ?_, h2, .inr (.inl h3)⟩
    rw [List.getElem?_append, if_pos (List.getElem?_eq_some_iff.1 h1).1]
    exact h1

end Spec
