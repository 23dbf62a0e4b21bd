import Verif.Proofs.Table
import Verif.Props.Full

/-!
# C97: the promise table is made once, and is all a call can wait for
-/
set_option autoImplicit false

namespace Props
open Pledge Bpfvm Spec Kernel

/-- C97: a call that has got past the table finds it made, in every run. -/
theorem C97_ready (c : World) (hc : Unmade c) (hs : List Happening) (w : Hand) (hw : w ∈ (c.run hs).hands) (f : Errand)
    (hf : f ∈ w.errands) (hp : f.site = .rest) : (c.run hs).cells[w.mem]? = some .ready :=
  ((orderly_unmade hc).run hs).past w hw f hf hp

/-- C97: no two calls make the same table at once: not in two threads of a memory, and not in one thread. -/
theorem C97_once (c : World) (hc : Unmade c) (hs : List Happening) :
    (∀ (j k : Nat) wj wk, (c.run hs).hands[j]? = some wj → (c.run hs).hands[k]? = some wk → wj.mem = wk.mem →
      Making wj → Making wk → j = k) ∧
    (∀ w ∈ (c.run hs).hands, ∀ (a b : Nat) (f g : Errand), w.errands[a]? = some f → w.errands[b]? = some g → f.site = .init →
      g.site = .init → a = b) := by
  have h := (orderly_unmade hc).run hs
  refine ⟨h.one, fun w hw a b f g ha hb hf hg => ?_⟩
  have honce := h.once w hw
  have key : ∀ (l : List Errand) (a b : Nat), (l.countP fun f => decide (f.site = .init)) ≤ 1 → l[a]? = some f → l[b]? = some g → a = b := by
    intro l
    induction l with
    | nil => intro a b _ h; simp at h
    | cons x l ih =>
      intro a b hcount h1 h2
      rw [List.countP_cons] at hcount
      have pos : ∀ (n : Nat) (y : Errand), l[n]? = some y → y.site = .init → 0 < l.countP fun f => decide (f.site = .init) := by
        intro n y hn hy
        rw [List.countP_pos_iff]
        exact ⟨y, List.mem_of_getElem? hn, by simp [hy]⟩
      cases a with
      | zero =>
        simp only [List.getElem?_cons_zero, Option.some.injEq] at h1
        subst h1
        cases b with
        | zero => rfl
        | succ b =>
          rw [List.getElem?_cons_succ] at h2
          have := pos b g h2 hg
          rw [if_pos (by simp [hf])] at hcount
          omega
      | succ a =>
        rw [List.getElem?_cons_succ] at h1
        cases b with
        | zero =>
          simp only [List.getElem?_cons_zero, Option.some.injEq] at h2
          subst h2
          have := pos a f h1 hf
          rw [if_pos (by simp [hg])] at hcount
          omega
        | succ b =>
          rw [List.getElem?_cons_succ] at h2
          rw [ih a b (by omega) h1 h2]
  exact key w.errands a b honce ha hb

/-- C97: a table that is there stays there, and one whose making has panicked stays unusable. -/
theorem C97_stays (c : World) (hc : Unmade c) (hs more : List Happening) (m : Nat) (x : Cell) (hx : x = .ready ∨ x = .poisoned)
    (h : (c.run hs).cells[m]? = some x) : ((c.run hs).run more).cells[m]? = some x := by
  have ho := (orderly_unmade hc).run hs
  generalize c.run hs = c' at ho h ⊢
  induction more generalizing c' with
  | nil => exact h
  | cons e more ih =>
    refine ih (c'.step e) (ho.step e) ?_
    rcases cell_step (step_is ho e) ho h with h1 | ⟨h1, _⟩ | ⟨h1, _⟩
    · exact h1
    · subst h1; rcases hx with h | h <;> cases h
    · subst h1; rcases hx with h | h <;> cases h

/-- C97: if the thread that makes the table is refused hash keys and the standard library panics, the table is unusable: from then on no
call in that memory gets past the table, so none returns `Ok`. -/
theorem C97_poisoned (c : World) (hc : Unmade c) (hs : List Happening) (i : Nat) (w : Hand) (f : Errand) (rest : List Errand) (n : Nat)
    (hi : (c.run hs).hands[i]? = some w) (he : w.errands = f :: rest) (hf : f.site = .init) (ha : w.thread.alive = true)
    (hk : w.keys = false) (hn : Kernel.enter w.thread f.seed.getrandom = .errno n) (hp : f.seed.fallback = .panics)
    (more : List Happening) :
    (((c.run hs).step (.go i)).run more).cells[w.mem]? = some .poisoned ∧
    ∀ (k : Nat) (u : Hand), (((c.run hs).step (.go i)).run more).hands[k]? = some u → u.mem = w.mem →
      (∀ g ∈ u.errands, g.site ≠ .rest) ∧ okOf (((c.run hs).step (.go i)).run more) (.go k) = [] := by
  have ho := (orderly_unmade hc).run hs
  have hmem := ho.mem w (List.mem_of_getElem? hi)
  have hcell : (c.run (hs ++ [.go i])).cells[w.mem]? = some .poisoned := by
    have : c.run (hs ++ [.go i]) = (c.run hs).step (.go i) := by simp [World.run]
    rw [this]
    have hst : (c.run hs).step (.go i) = (c.run hs).advance i w f := by simp only [World.step, hi, he, ha, if_true]
    have hask : askKeys f.act.env.handler w.thread f.seed = .error .panic := by simp only [askKeys, hn, hp]
    rw [hst]
    simp only [World.advance, hf, hk, hask]
    simp only [World.ends, PledgeRes.death, Bool.false_eq_true, if_false, List.getElem?_set_self hmem]
  have hstay := C97_stays c hc (hs ++ [.go i]) more w.mem .poisoned (.inr rfl) hcell
  have ho' : Orderly ((c.run (hs ++ [.go i])).run more) := ((orderly_unmade hc).run _).run more
  have hrun : c.run (hs ++ [.go i]) = (c.run hs).step (.go i) := by simp [World.run]
  rw [hrun] at hstay ho'
  refine ⟨hstay, fun k u hk hum => ?_⟩
  have hno : ∀ f ∈ u.errands, f.site ≠ .rest := by
    intro f hf hs
    have := ho'.past u (List.mem_of_getElem? hk) f hf hs
    rw [hum, hstay] at this
    cases this
  refine ⟨hno, ?_⟩
  simp only [okOf, hk]
  cases hf : u.errands with
  | nil => rfl
  | cons f rest =>
    have := hno f (by rw [hf]; simp)
    simp only [this, false_and, and_false, if_false]

/-- C97: once a table is marked as being made and no living thread makes it, that is so for ever, and no call in that memory gets past
the table; so none returns `Ok`. -/
theorem C97_abandoned (c : World) (hc : Unmade c) (hs : List Happening) (m : Nat) (h : Abandoned (c.run hs) m) (more : List Happening) :
    Abandoned ((c.run hs).run more) m ∧
    ∀ (k : Nat) (w : Hand), ((c.run hs).run more).hands[k]? = some w → w.mem = m →
      (∀ f ∈ w.errands, f.site ≠ .rest) ∧ okOf ((c.run hs).run more) (.go k) = [] := by
  have ho := (orderly_unmade hc).run hs
  generalize c.run hs = c' at ho h ⊢
  have h1 : Abandoned (c'.run more) m ∧ Orderly (c'.run more) := by
    induction more generalizing c' with
    | nil => exact ⟨h, ho⟩
    | cons e more ih => exact ih (c'.step e) (ho.step e) (abandoned_step ho e h)
  refine ⟨h1.1, fun k w hk hm => ?_⟩
  have hno : ∀ f ∈ w.errands, f.site ≠ .rest := by
    intro f hf hs
    have := h1.2.past w (List.mem_of_getElem? hk) f hf hs
    rw [hm, h1.1.1] at this
    cases this
  refine ⟨hno, ?_⟩
  simp only [okOf, hk]
  cases hf : w.errands with
  | nil => rfl
  | cons f rest =>
    have := hno f (by rw [hf]; simp)
    simp only [this, false_and, and_false, if_false]

/-- C97: a table is abandoned in three ways only: the thread that makes it dies, a handler jumps out of the making, or another thread
forks meanwhile (in the memory of the child). -/
theorem C97_causes (c : World) (hc : Unmade c) (hs : List Happening) (e : Happening) (m : Nat) (h0 : ¬ Abandoned (c.run hs) m)
    (h1 : Abandoned ((c.run hs).step e) m) :
    (∃ (j : Nat) (w w' : Hand), (c.run hs).hands[j]? = some w ∧ w.mem = m ∧ w.thread.alive = true ∧ Making w ∧
      ((c.run hs).step e).hands[j]? = some w' ∧
      (w'.thread.alive = false ∨ (e = .leave j ∧ ∃ f, w.errands.head? = some f ∧ f.site = .init))) ∨
    (m = (c.run hs).cells.length ∧ ∃ (i : Nat) (d : SeccompData) (h : Option Int) (pid tid : BitVec 32) (w : Hand),
      e = .fork i d h pid tid ∧ (c.run hs).hands[i]? = some w ∧ ¬ Making w ∧ (c.run hs).cells[w.mem]? = some .running) := by
  have ho := (orderly_unmade hc).run hs
  generalize c.run hs = c' at ho h0 h1 ⊢
  have hst := step_is ho e
  by_cases hlt : m < c'.cells.length
  · left
    obtain ⟨x, hx⟩ : ∃ x, c'.cells[m]? = some x := ⟨_, List.getElem?_eq_getElem hlt⟩
    have hrun : c'.cells[m]? = some .running := by
      rcases cell_step hst ho hx with h2 | ⟨h2, h3, w', hw, hm, ha, hmk⟩ | ⟨h2, _⟩
      · rw [h1.1] at h2; cases h2; exact hx
      · exact absurd hmk (h1.2 w' hw hm ha)
      · rw [hx, h2]
    have : ∃ w ∈ c'.hands, w.mem = m ∧ w.thread.alive = true ∧ Making w := by
      apply Classical.byContradiction
      intro hno
      exact h0 ⟨hrun, fun w hw hm ha hmk => hno ⟨w, hw, hm, ha, hmk⟩⟩
    obtain ⟨w, hw, hm, ha, hmk⟩ := this
    obtain ⟨j, hj⟩ := List.getElem?_of_mem hw
    obtain ⟨w', g1, g2, g3⟩ := maker_step hst ho hj ha hmk
    refine ⟨j, w, w', hj, hm, ha, hmk, g1, ?_⟩
    rcases g3 with h | h | h | h
    · exact .inl h
    · cases hal : w'.thread.alive with
      | false => exact .inl rfl
      | true => exact absurd h (h1.2 w' (List.mem_of_getElem? g1) (by rw [g2, hm]) hal)
    · exact .inr h
    · rw [hm, h1.1] at h; exact absurd rfl h
  · right
    have hge : c'.cells.length ≤ m := by omega
    have hnone : c'.cells[m]? = none := List.getElem?_eq_none hge
    have same : ∀ cs : List Cell, cs = c'.cells → cs[m]? = some .running → False := by
      intro cs hcs ha
      rw [hcs, hnone] at ha
      cases ha
    generalize hcc : c'.step e = c'' at hst h1
    cases hst with
    | dim h => exact (same _ h.cells h1.1).elim
    | goes hi hf ha hg =>
      have hsz : ∀ n y, (c'.cells.set n y)[m]? = some .running → False := by
        intro n y hy
        rw [List.getElem?_eq_none (by simpa using hge)] at hy
        cases hy
      cases hg with
      | wait => exact (same _ rfl h1.1).elim
      | on => exact (same _ rfl h1.1).elim
      | begins => exact (hsz _ _ h1.1).elim
      | made => exact (hsz _ _ h1.1).elim
      | burst => exact (hsz _ _ h1.1).elim
      | over w1 _ _ _ _ hd _ => exact (same _ hd.cells h1.1).elim
    | push => exact (same _ rfl h1.1).elim
    | pop => exact (same _ rfl h1.1).elim
    | forked hi ha ha' hm he =>
      rename_i i d h pid tid w w'
      have hmm : m = c'.cells.length := by
        have := (List.getElem?_eq_some_iff.1 h1.1).1
        simp at this
        omega
      subst hmm
      refine ⟨rfl, i, d, h, pid, tid, w, rfl, hi, ?_, ?_⟩
      · intro hmk
        refine h1.2 w' (by simp) hm ha' ?_
        unfold Making at hmk ⊢
        rw [he]
        exact hmk
      · have := h1.1
        simp only [List.getElem?_append_right (Nat.le_refl _), Nat.sub_self, List.getElem?_cons_zero, Option.some.injEq] at this
        rw [List.getElem?_eq_getElem (ho.mem w (List.mem_of_getElem? hi))] at this ⊢
        simpa using this
    | cloned => exact (same _ rfl h1.1).elim
    | execed h0' hm he =>
      have := h1.1
      have hlt' := (List.getElem?_eq_some_iff.1 this).1
      simp at hlt'
      have hmm : m = c'.cells.length := by omega
      subst hmm
      simp at this

/-! ## waiting for oneself -/

/-- A thread keeps its memory. -/
theorem mem_step {c c' : World} {e : Happening} (hs : Effect c e c') {j : Nat} {w : Hand} (hj : c.hands[j]? = some w) :
    ∃ w', c'.hands[j]? = some w' ∧ w'.mem = w.mem := by
  have hlt : j < c.hands.length := (List.getElem?_eq_some_iff.1 hj).1
  have dims : ∀ {c0 c1 : World}, Dimmed c0 c1 → (∃ u, c0.hands[j]? = some u ∧ u.mem = w.mem) → ∃ w', c1.hands[j]? = some w' ∧ w'.mem = w.mem := by
    rintro c0 c1 hd ⟨u0, h0, hm⟩
    have hl : j < c1.hands.length := by rw [hd.length]; exact (List.getElem?_eq_some_iff.1 h0).1
    obtain ⟨u, g1, g2, _⟩ := hd.back j _ (List.getElem?_eq_getElem hl)
    rw [h0] at g1
    cases g1
    exact ⟨_, List.getElem?_eq_getElem hl, by rw [g2, hm]⟩
  have sets : ∀ (i : Nat) (u w1 : Hand), c.hands[i]? = some u → w1.mem = u.mem → ∃ w', (c.hands.set i w1)[j]? = some w' ∧ w'.mem = w.mem := by
    intro i u w1 hu hm
    by_cases hij : i = j
    · subst hij
      rw [hj] at hu
      cases hu
      exact ⟨w1, by simp [hlt], hm⟩
    · exact ⟨w, by rw [List.getElem?_set, if_neg hij]; exact hj, rfl⟩
  cases hs with
  | dim h => exact dims h ⟨w, hj, rfl⟩
  | goes hi hf ha hg =>
    cases hg with
    | wait => exact ⟨w, hj, rfl⟩
    | on _ _ _ _ hm => exact sets _ _ _ hi hm
    | begins _ _ _ _ _ hm => exact sets _ _ _ hi hm
    | made _ _ _ _ hm => exact sets _ _ _ hi hm
    | burst _ _ hm => exact sets _ _ _ hi hm
    | over w1 _ hm _ _ hd _ => exact dims hd (sets _ _ _ hi hm)
  | push hi => exact sets _ _ _ hi rfl
  | pop hi => exact sets _ _ _ hi rfl
  | forked => exact ⟨w, by simp only [List.getElem?_append, hlt, if_true]; exact hj, rfl⟩
  | cloned => exact ⟨w, by simp only [List.getElem?_append, hlt, if_true]; exact hj, rfl⟩
  | execed h0 =>
    obtain ⟨w', g1, g2⟩ := dims h0 ⟨w, hj, rfl⟩
    exact ⟨w', by simp only [List.getElem?_append, (List.getElem?_eq_some_iff.1 g1).1, if_true]; exact g1, g2⟩

/-- Thread `i` waits, in calls made on top of `stack`, for a table that it makes itself further down in `stack`. -/
def Stuck (c : World) (i : Nat) (stack : List Errand) : Prop :=
  ∃ (w : Hand) (more : List Errand), c.hands[i]? = some w ∧ w.errands = more ++ stack ∧ ∀ f ∈ more, f.site = .table

theorem stuck_step {c : World} (ho : Orderly c) {i : Nat} {f : Errand} {rest : List Errand} (hf : f.site = .table)
    (hm : ∃ g ∈ rest, g.site = .init) (h : Stuck c i (f :: rest)) (e : Happening) (he : e ≠ .leave i) :
    Stuck (c.step e) i (f :: rest) := by
  obtain ⟨w, more, h1, h2, h3⟩ := h
  have hlt : i < c.hands.length := (List.getElem?_eq_some_iff.1 h1).1
  have hrun : c.cells[w.mem]? = some .running := by
    refine ho.now w (List.mem_of_getElem? h1) ?_
    obtain ⟨g, hg, hgs⟩ := hm
    exact ⟨g, by rw [h2]; simp [hg], hgs⟩
  have dims : ∀ {c0 c1 : World}, Dimmed c0 c1 → c0.hands[i]? = some w → Stuck c1 i (f :: rest) := by
    intro c0 c1 hd h0
    have hl : i < c1.hands.length := by rw [hd.length]; exact (List.getElem?_eq_some_iff.1 h0).1
    obtain ⟨u, g1, _, g3, _⟩ := hd.back i _ (List.getElem?_eq_getElem hl)
    rw [h0] at g1
    cases g1
    exact ⟨_, more, List.getElem?_eq_getElem hl, by rw [g3, h2], h3⟩
  have hst := step_is ho e
  by_cases hgo : e = .go i
  · subst hgo
    have hsame : c.step (.go i) = c := by
      obtain ⟨f0, rest0, hcons, hsite⟩ : ∃ f0 rest0, w.errands = f0 :: rest0 ∧ f0.site = .table := by
        cases more with
        | nil => exact ⟨f, rest, h2, hf⟩
        | cons g more => exact ⟨g, _, h2, h3 g (by simp)⟩
      simp only [World.step, h1, hcons]
      split
      · simp only [World.advance, hsite, hrun]
      · rfl
    rw [hsame]
    exact ⟨w, more, h1, h2, h3⟩
  · generalize c.step e = c' at hst ⊢
    cases hst with
    | dim h => exact dims h h1
    | goes hi hf0 ha0 hg =>
      rename_i j u f0 rest0
      have hij : j ≠ i := fun h => hgo (by rw [h])
      have hset : ∀ w1 : Hand, (c.hands.set j w1)[i]? = some w := by
        intro w1
        rw [List.getElem?_set, if_neg hij]
        exact h1
      cases hg with
      | wait => exact ⟨w, more, h1, h2, h3⟩
      | on => exact ⟨w, more, hset _, h2, h3⟩
      | begins => exact ⟨w, more, hset _, h2, h3⟩
      | made => exact ⟨w, more, hset _, h2, h3⟩
      | burst => exact ⟨w, more, hset _, h2, h3⟩
      | over w1 _ _ _ _ hd _ => exact dims hd (hset _)
    | push hi hs =>
      rename_i j b env q seed ps v u f0
      by_cases hij : j = i
      · subst hij
        rw [h1] at hi
        cases hi
        refine ⟨{ w with errands := f0 :: w.errands }, f0 :: more, by simp [hlt], by simp [h2], ?_⟩
        intro g hg
        rcases List.mem_cons.1 hg with rfl | hg
        · exact hs
        · exact h3 g hg
      · exact ⟨w, more, by simp only [List.getElem?_set, if_neg hij]; exact h1, h2, h3⟩
    | pop hi =>
      rename_i j u
      have hij : j ≠ i := fun h => he (by rw [h])
      exact ⟨w, more, by simp only [List.getElem?_set, if_neg hij]; exact h1, h2, h3⟩
    | forked => exact ⟨w, more, by simp only [List.getElem?_append, hlt, if_true]; exact h1, h2, h3⟩
    | cloned => exact ⟨w, more, by simp only [List.getElem?_append, hlt, if_true]; exact h1, h2, h3⟩
    | execed h0 hm' he' =>
      obtain ⟨w', more', g1, g2, g3⟩ := dims h0 h1
      exact ⟨w', more', by simp only [List.getElem?_append, (List.getElem?_eq_some_iff.1 g1).1, if_true]; exact g1, g2, g3⟩

/-- C97: a handler that pledges while the thread it interrupts is making the table waits for ever (unless it is jumped out of): its call
and those below it never end, and no call in the memory gets past the table. -/
theorem C97_deadlock (c : World) (hc : Unmade c) (hs : List Happening) (i : Nat) (w : Hand) (f : Errand) (rest : List Errand)
    (hi : (c.run hs).hands[i]? = some w) (he : w.errands = f :: rest) (hf : f.site = .table) (hm : ∃ g ∈ rest, g.site = .init)
    (more : List Happening) (hl : ∀ e ∈ more, e ≠ .leave i) :
    (∃ w' deeper, ((c.run hs).run more).hands[i]? = some w' ∧ w'.errands = deeper ++ w.errands ∧ ∀ g ∈ deeper, g.site = .table) ∧
    ∀ (k : Nat) (u : Hand), ((c.run hs).run more).hands[k]? = some u → u.mem = w.mem →
      (∀ g ∈ u.errands, g.site ≠ .rest) ∧ okOf ((c.run hs).run more) (.go k) = [] := by
  have ho := (orderly_unmade hc).run hs
  have hmk : Making w := by
    obtain ⟨g, hg, hgs⟩ := hm
    exact ⟨g, by rw [he]; simp [hg], hgs⟩
  have hst : Stuck (c.run hs) i (f :: rest) := ⟨w, [], hi, he, by simp⟩
  have hmem : ∃ u, (c.run hs).hands[i]? = some u ∧ u.mem = w.mem := ⟨w, hi, rfl⟩
  generalize c.run hs = c' at ho hst hmem ⊢
  have h1 : Stuck (c'.run more) i (f :: rest) ∧ Orderly (c'.run more) ∧ ∃ u, (c'.run more).hands[i]? = some u ∧ u.mem = w.mem := by
    clear hi
    induction more generalizing c' with
    | nil => exact ⟨hst, ho, hmem⟩
    | cons e more ih =>
      refine ih (fun e he => hl e (List.mem_cons_of_mem _ he)) (c'.step e) (ho.step e)
        (stuck_step ho hf hm hst e (hl e (by simp))) ?_
      obtain ⟨u, hu, hum⟩ := hmem
      obtain ⟨u', g1, g2⟩ := mem_step (step_is ho e) hu
      exact ⟨u', g1, by rw [g2, hum]⟩
  obtain ⟨⟨w', deeper, g1, g2, g3⟩, ho', u0, g4, g5⟩ := h1
  rw [g1] at g4
  cases g4
  have hrun : (c'.run more).cells[w.mem]? = some .running := by
    rw [← g5]
    refine ho'.now w' (List.mem_of_getElem? g1) ?_
    obtain ⟨g, hg, hgs⟩ := hm
    exact ⟨g, by rw [g2]; simp [hg], hgs⟩
  refine ⟨⟨w', deeper, g1, by rw [g2, he], g3⟩, fun k u hk hum => ?_⟩
  have hno : ∀ f ∈ u.errands, f.site ≠ .rest := by
    intro f hf hs
    have := ho'.past u (List.mem_of_getElem? hk) f hf hs
    rw [hum, hrun] at this
    cases this
  refine ⟨hno, ?_⟩
  simp only [okOf, hk]
  cases hf : u.errands with
  | nil => rfl
  | cons f rest =>
    have := hno f (by rw [hf]; simp)
    simp only [this, false_and, and_false, if_false]

/-! ## progress -/

/-- Steps a call still makes at most when it need not wait. -/
def stepsLeft (w : Hand) (f : Errand) : Nat :=
  (match f.site with | .table => 2 | .init => 1 | .rest => bif w.keys then 0 else 1) + left f.act

/-- What one step of its own does to the call `f` of thread `i`, on top of `rest`. -/
def Nearer (c : World) (i : Nat) (w : Hand) (f : Errand) (rest : List Errand) (c' : World) : Prop :=
  ∃ w', c'.hands[i]? = some w' ∧ w'.mem = w.mem ∧ c'.cells.length = c.cells.length ∧
    (w'.thread.alive = false ∨ w'.errands = rest ∨
      (w'.thread.alive = true ∧ ∃ f', w'.errands = f' :: rest ∧ f'.site ≠ .table ∧ stepsLeft w' f' < stepsLeft w f))

/-- A step brings the call nearer to its end. -/
theorem advance_nearer {c : World} {i : Nat} {w : Hand} {f : Errand} {rest : List Errand} (hi : c.hands[i]? = some w)
    (ha : w.thread.alive = true) (hf : w.errands = f :: rest) (hmem : w.mem < c.cells.length)
    (hw : f.site = .table → c.cells[w.mem]? ≠ some .running) : Nearer c i w f rest (c.advance i w f) := by
  have htail : w.errands.tail = rest := by rw [hf]; rfl
  have hlt : i < c.hands.length := (List.getElem?_eq_some_iff.1 hi).1
  have over : ∀ (cells : List Cell) (t : Thread) r, cells.length = c.cells.length →
      Nearer c i w f rest ((⟨c.hands, cells⟩ : World).ends i { w with thread := t } r) := by
    intro cells t r hl
    have hd := dimmed_ends ⟨c.hands, cells⟩ i { w with thread := t } r
    have hl' : i < ((⟨c.hands, cells⟩ : World).ends i { w with thread := t } r).hands.length := by rw [hd.length]; simpa using hlt
    obtain ⟨u, h1, h2, h3, _⟩ := hd.back i _ (List.getElem?_eq_getElem hl')
    rcases get_set h1 with ⟨_, rfl⟩ | ⟨h, _⟩
    · exact ⟨_, List.getElem?_eq_getElem hl', h2, by rw [hd.cells]; exact hl, .inr (.inl (by rw [h3]; exact htail))⟩
    · exact absurd rfl h
  have near : ∀ (w' : Hand) (f' : Errand) (cells : List Cell), cells.length = c.cells.length → w'.mem = w.mem → w'.thread.alive = true →
      w'.errands = f' :: rest → f'.site ≠ .table → stepsLeft w' f' < stepsLeft w f → Nearer c i w f rest ⟨c.hands.set i w', cells⟩ := by
    intro w' f' cells h1 h2 h3 h4 h5 h6
    exact ⟨w', by simp [hlt], h2, h1, .inr (.inr ⟨h3, f', h4, h5, h6⟩)⟩
  unfold World.advance
  cases hs : f.site with
  | table =>
    simp only
    split
    · exact near (w.with { f with site := .rest }) { f with site := .rest } _ rfl rfl ha (by simp only [Hand.with, htail]) (by simp)
        (by simp only [stepsLeft, hs, Hand.with]; cases w.keys <;> simp <;> omega)
    · exact near (w.with { f with site := .init }) { f with site := .init } _ (by simp) rfl ha (by simp only [Hand.with, htail]) (by simp)
        (by simp only [stepsLeft, hs]; omega)
    · exact over c.cells w.thread .panic rfl
    · rename_i h1 h2 h3
      exfalso
      have h4 := hw hs
      rw [List.getElem?_eq_getElem hmem] at h1 h2 h3 h4
      cases hx : c.cells[w.mem] <;> simp_all
  | init =>
    simp only
    split
    · exact near (w.with { f with site := .rest }) { f with site := .rest } _ (by simp) rfl ha (by simp only [Hand.with, htail]) (by simp)
        (by rename_i hk; simp only [stepsLeft, hs, Hand.with, hk, cond_true]; omega)
    · rename_i hk
      split
      · exact near ({ w with keys := true }.with { f with site := .rest }) { f with site := .rest } (c.cells.set w.mem .ready)
          (by simp) rfl ha (by simp only [Hand.with, htail]) (by simp) (by simp only [stepsLeft, hs, Hand.with, cond_true]; omega)
      · exact over (c.cells.set w.mem .poisoned) w.thread .panic (by simp)
      · exact over c.cells w.thread _ rfl
  | rest =>
    simp only
    split
    · rename_i hk
      simp only [Bool.and_eq_true, Bool.not_eq_true'] at hk
      split
      · exact near { w with keys := true } f _ rfl rfl ha hf (by simp [hs])
          (by simp only [stepsLeft, hs, hk.2]; simp)
      · exact over c.cells w.thread _ rfl
    · have hal := next_alive f.act w.thread
      have hle := fun a' t' => next_left f.act a' w.thread t'
      generalize f.act.next w.thread = z at hal hle ⊢
      obtain ⟨t, x⟩ := z
      cases x with
      | inl a =>
        exact near ({ w with thread := t }.with { f with act := a, site := .rest }) { f with act := a, site := .rest } _ rfl rfl
          (by simp only [Hand.with]; rw [hal, ha]) (by simp only [Hand.with, htail]) (by simp)
          (by simp only [stepsLeft, hs, Hand.with]; have := hle a t rfl; omega)
      | inr r => exact over c.cells t r rfl

/-- C97: a call that need not wait for the table ends after finitely many steps of its own thread: the thread is dead, or goes on with
what the call had interrupted (`rest`). -/
theorem C97_progress (c : World) (i : Nat) (w : Hand) (f : Errand) (rest : List Errand) (hi : c.hands[i]? = some w)
    (hf : w.errands = f :: rest) (hmem : w.mem < c.cells.length) (hw : f.site = .table → c.cells[w.mem]? ≠ some .running) :
    ∃ n w', n ≤ stepsLeft w f ∧ (c.run (List.replicate n (.go i))).hands[i]? = some w' ∧
      (w'.thread.alive = false ∨ w'.errands = rest) := by
  generalize hb : stepsLeft w f = b
  induction b using Nat.strongRecOn generalizing c w f with
  | _ b ih =>
    cases ha : w.thread.alive with
    | false => exact ⟨0, w, Nat.zero_le _, hi, .inl ha⟩
    | true =>
      have hst : c.step (.go i) = c.advance i w f := by simp only [World.step, hi, hf, ha, if_true]
      obtain ⟨w', h1, h2, h3, h4⟩ := advance_nearer hi ha hf hmem hw
      have hpos : 0 < stepsLeft w f := by
        have : 0 < left f.act := by unfold left; split <;> omega
        unfold stepsLeft; omega
      have one : ∀ b, b = 1 → (c.run (List.replicate b (.go i))) = c.advance i w f := by
        intro b hb; subst hb; simp only [World.run, List.replicate_one, List.foldl_cons, List.foldl_nil, hst]
      rcases h4 with h | h | ⟨h, f', h5, h6, h7⟩
      · exact ⟨1, w', by omega, by rw [one 1 rfl]; exact h1, .inl h⟩
      · exact ⟨1, w', by omega, by rw [one 1 rfl]; exact h1, .inr h⟩
      · obtain ⟨n, w'', g1, g2, g3⟩ := ih (stepsLeft w' f') (by omega) (c.advance i w f) w' f' h1 h5 (by rw [h2, h3]; exact hmem)
          (fun h => absurd h h6) rfl
        refine ⟨n + 1, w'', by omega, ?_, g3⟩
        rw [List.replicate_succ]
        simp only [World.run, List.foldl_cons, hst]
        exact g2

/-- C97: so a call just made ends after at most six steps more than its promises have filters, unless the table is being made. -/
theorem C97_ends (c : World) (i : Nat) (w : Hand) (hi : c.hands[i]? = some w) (hmem : w.mem < c.cells.length)
    (hw : c.cells[w.mem]? ≠ some .running) (b : Build) (env : Env) (q : Nat → Query) (seed : Seed) (ps : List Promise) (v : SeccompReturn) :
    ∃ n w', n ≤ ((ps.map filtersOf).flatten).length + 6 ∧
      ((c.step (.enter i b env q seed ps v)).run (List.replicate n (.go i))).hands[i]? = some w' ∧
      (w'.thread.alive = false ∨ w'.errands = w.errands) := by
  cases ha : w.thread.alive with
  | false =>
    refine ⟨0, w, Nat.zero_le _, ?_, .inl ha⟩
    simp [World.step, World.run, hi, ha]
  | true =>
    obtain ⟨n, w', h1, h2, h3⟩ := C97_progress (c.step (.enter i b env q seed ps v)) i
      { w with errands := ⟨⟨b, env, q, ps, v, .start⟩, seed, .table⟩ :: w.errands } ⟨⟨b, env, q, ps, v, .start⟩, seed, .table⟩ w.errands
      (by simp only [World.step, hi, ha, if_true, List.getElem?_set_self (List.getElem?_eq_some_iff.1 hi).1]) rfl
      (by simpa [World.step, hi, ha] using hmem) (fun _ => by simpa [World.step, hi, ha] using hw)
    refine ⟨n, w', ?_, h2, h3⟩
    have : stepsLeft { w with errands := ⟨⟨b, env, q, ps, v, .start⟩, seed, .table⟩ :: w.errands } ⟨⟨b, env, q, ps, v, .start⟩, seed, .table⟩ ≤
        ((ps.map filtersOf).flatten).length + 6 := by
      simp only [stepsLeft, left, allFilters, List.map_cons, List.flatten_cons, List.length_append]
      have : (filtersOf .Default).length = 1 := by decide
      omega
    omega

/-- C97: whatever its process was in the middle of, exec leaves it with one thread that can pledge: no calls in progress, a table of its own
that nobody has begun to make, and the filters it had; all other threads of the memory are dead. -/
theorem C97_exec (c0 : World) (hc : Unmade c0) (hs : List Happening) (i : Nat) (w : Hand) (hi : (c0.run hs).hands[i]? = some w)
    (ha : w.thread.alive = true) (d : SeccompData) (h : Option Int) (hd : Kernel.enter w.thread d = .executed) :
    ∃ w', ((c0.run hs).step (.exec i d h)).hands[(c0.run hs).hands.length]? = some w' ∧ w'.thread.alive = true ∧ w'.errands = [] ∧
      w'.thread.filters = w.thread.filters ∧ ((c0.run hs).step (.exec i d h)).cells[w'.mem]? = some .idle ∧
      ∀ k u, ((c0.run hs).step (.exec i d h)).hands[k]? = some u → k ≠ (c0.run hs).hands.length →
        u.mem ≠ w'.mem ∧ (u.mem = w.mem → u.thread.alive = false) := by
  have hmem := ((orderly_unmade hc).run hs).mem
  generalize c0.run hs = c at hi hmem ⊢
  have hst : c.step (.exec i d h) =
      { hands := (c.hands.map fun u =>
            if u.mem = w.mem then { u with thread := { u.thread with alive := false } } else u) ++
              [⟨{ w.thread with tid := w.thread.pid }, c.cells.length, false, [], ⟨w.thread.pid, w.thread.pid⟩ :: w.line⟩]
        cells := c.cells ++ [.idle] } := by
    simp only [World.step, hi, ha, hd, and_self, if_true]
  rw [hst]
  refine ⟨⟨{ w.thread with tid := w.thread.pid }, c.cells.length, false, [], ⟨w.thread.pid, w.thread.pid⟩ :: w.line⟩, ?_, ha, rfl, rfl,
    by simp, fun k u hu hk => ?_⟩
  · simp only
    rw [List.getElem?_append_right (by simp)]
    simp
  · simp only at hu
    rcases Nat.lt_or_ge k c.hands.length with hlt | hge
    · rw [List.getElem?_append_left (by simpa using hlt), List.getElem?_map, List.getElem?_eq_getElem hlt] at hu
      simp only [Option.map_some, Option.some.injEq] at hu
      refine ⟨?_, fun hm => ?_⟩
      · have := hmem _ (List.getElem_mem hlt)
        have hm : u.mem = c.hands[k].mem := by rw [← hu]; split <;> rfl
        simp only [hm]
        omega
      · rw [← hu] at hm ⊢
        split
        · rfl
        · rename_i hne
          split at hm
          · contradiction
          · exact absurd hm hne
    · rw [List.getElem?_append_right (by simpa using hge)] at hu
      have : k - (c.hands.map fun u => if u.mem = w.mem then { u with thread := { u.thread with alive := false } } else u).length ≠ 0 := by
        simp only [List.length_map]; omega
      cases hx : k - (c.hands.map fun u => if u.mem = w.mem then { u with thread := { u.thread with alive := false } } else u).length with
      | zero => exact absurd hx this
      | succ n => rw [hx] at hu; simp at hu

/-- C97: a call waits because the table is abandoned, or because a living thread of the same memory makes it. If that thread is not itself
waiting in a handler on top of the making (`C97_deadlock`), its next step ends the wait, unless it dies in it. -/
theorem C97_released (c : World) (hc : Unmade c) (hs : List Happening) (m : Nat) (hrun : (c.run hs).cells[m]? = some .running) :
    Abandoned (c.run hs) m ∨
    ∃ (j : Nat) (u : Hand) (g : Errand) (below : List Errand), (c.run hs).hands[j]? = some u ∧ u.mem = m ∧ u.thread.alive = true ∧
      u.errands = g :: below ∧
      ((g.site = .table ∧ ∃ x ∈ below, x.site = .init) ∨
       (g.site = .init ∧
        (((c.run hs).step (.go j)).cells[m]? = some .ready ∨ ((c.run hs).step (.go j)).cells[m]? = some .poisoned ∨
         (Abandoned ((c.run hs).step (.go j)) m ∧ ∃ o, askKeys g.act.env.handler u.thread g.seed = .error (.died o))))) := by
  have ho := (orderly_unmade hc).run hs
  generalize c.run hs = c' at ho hrun ⊢
  refine Classical.or_iff_not_imp_left.2 fun hna => ?_
  have : ∃ w ∈ c'.hands, w.mem = m ∧ w.thread.alive = true ∧ Making w := by
    apply Classical.byContradiction
    intro hno
    exact hna ⟨hrun, fun w hw hm ha hmk => hno ⟨w, hw, hm, ha, hmk⟩⟩
  obtain ⟨u, hu, hm, ha, hmk⟩ := this
  obtain ⟨j, hj⟩ := List.getElem?_of_mem hu
  have hmem := ho.mem u hu
  cases he : u.errands with
  | nil => obtain ⟨f, hf, _⟩ := hmk; rw [he] at hf; cases hf
  | cons g below =>
    refine ⟨j, u, g, below, hj, hm, ha, he, ?_⟩
    cases hg : g.site with
    | rest =>
      have := ho.past u hu g (by rw [he]; simp) hg
      rw [hm, hrun] at this
      cases this
    | table =>
      refine .inl ⟨rfl, ?_⟩
      rcases (Making.cons he).1 hmk with h | h
      · rw [hg] at h; cases h
      · exact h
    | init =>
      refine .inr ⟨rfl, ?_⟩
      have hst : c'.step (.go j) = c'.advance j u g := by simp only [World.step, hj, he, ha, if_true]
      rw [hst]
      unfold World.advance
      simp only [hg]
      subst hm
      split
      · exact .inl (by simp only [List.getElem?_set_self hmem])
      · split
        · exact .inl (by simp only [List.getElem?_set_self hmem])
        · refine .inr (.inl ?_)
          rw [(dimmed_ends _ _ _ _).cells]
          simp only [List.getElem?_set_self hmem]
        · rename_i r hr hask
          refine .inr (.inr ⟨⟨?_, ?_⟩, ?_⟩)
          · rw [(dimmed_ends _ _ _ _).cells]; exact hrun
          · intro w' hw' hm' _ hmk'
            obtain ⟨k, hk⟩ := List.getElem?_of_mem hw'
            obtain ⟨v, h1, h2, h3, _⟩ := (dimmed_ends _ _ _ _).back k w' hk
            have hmv : Making v := by unfold Making at hmk' ⊢; rw [← h3]; exact hmk'
            rcases get_set h1 with ⟨_, rfl⟩ | ⟨hkj, h4⟩
            · obtain ⟨x, hx, hxs⟩ := hmv
              have hcount := ho.once u hu
              rw [he, List.countP_cons, if_pos (by simp [hg])] at hcount
              have hpos : 0 < below.countP fun f => decide (f.site = .init) :=
                List.countP_pos_iff.2 ⟨x, by simpa [he] using hx, by simp [hxs]⟩
              omega
            · exact hkj (ho.one k j v u h4 hj (by rw [← h2, hm']) hmv hmk)
          · unfold askKeys at hask ⊢
            cases hfb : g.seed.fallback <;> cases hen : Kernel.enter u.thread g.seed.getrandom <;>
              simp only [hfb, hen] at hask ⊢ <;> first | (cases hask; done) | skip
            all_goals (try split at hask) <;> (try split) <;> simp_all <;> exact ⟨_, hask.symm⟩

/-! ## a concrete world -/

example : Unmade world0 := by
  refine ⟨fun w hw => ?_, fun x hx => ?_⟩
  · rw [List.mem_singleton.1 hw]; exact ⟨rfl, by decide⟩
  · rw [List.mem_singleton.1 hx]

set_option maxRecDepth 100000 in
/-- In the middle of `crowd`, calls of two threads and a process have got past their tables. -/
example : ((world0.run (crowd.take 130)).hands.map fun w => (w.errands.map Errand.site, w.mem)) =
    [([], 0), ([.rest], 0), ([.rest], 1)] ∧ (world0.run (crowd.take 130)).cells = [.ready, .ready] := by
  decide +kernel

/-- Any call. -/
def anyCall (i : Nat) : Happening := .enter i ⟨true⟩ calm (fun _ => ⟨0, fun _ => 0, 0⟩) ⟨0, fun _ => 0, .panics⟩ [.StdIO] .KillProcess

set_option maxRecDepth 100000 in
/-- The bound of `C97_ends` is exact: the first call in a process ends with its last step. -/
example : ((world0.run (anyCall 0 :: List.replicate ((([Promise.StdIO].map filtersOf).flatten).length + 6) (.go 0))).hands.map
      fun w => w.errands.length) = [0] ∧
    ((world0.run (anyCall 0 :: List.replicate ((([Promise.StdIO].map filtersOf).flatten).length + 5) (.go 0))).hands.map
      fun w => w.errands.length) = [1] := by
  decide +kernel

/-- While one thread makes the table, another one makes a process. -/
def cutOff : List Happening := [.clone 0 (mkCall 56 []) none 101, anyCall 0, .go 0]

/-- In the child the table is abandoned, and was not before. -/
example : ¬ Abandoned (world0.run cutOff) 1 ∧ Abandoned ((world0.run cutOff).step (.fork 1 (mkCall 57 []) none 200 200)) 1 := by
  refine ⟨fun h => absurd h.1 (by decide +kernel), by decide +kernel, ?_⟩
  have : ∀ w ∈ ((world0.run cutOff).step (.fork 1 (mkCall 57 []) none 200 200)).hands, w.mem = 1 → w.errands = [] := by
    decide +kernel
  intro w hw hm _ hk
  obtain ⟨f, hf, _⟩ := hk
  rw [this w hw hm] at hf
  cases hf

/-- While one thread makes the table, a call of another one waits for it: the second case of `C97_released`. -/
example : (world0.run (cutOff ++ [anyCall 1])).cells = [.running] ∧
    ((world0.run (cutOff ++ [anyCall 1])).hands.map fun w => w.errands.map Errand.site) = [[.init], [.table]] ∧
    ((world0.run (cutOff ++ [anyCall 1])).step (.go 0)).cells = [.ready] := by
  decide +kernel

/-- A handler pledges while the thread makes the table: the hypotheses of `C97_deadlock` are met. -/
example : ((world0.run [anyCall 0, .go 0, anyCall 0]).hands.map fun w => w.errands.map Errand.site) = [[.table, .init]] := by
  decide +kernel

/-- A thread whose handler waits for ever for the table its own call is making starts another program (`C97_exec`). -/
example : ((world0.run [anyCall 0, .go 0, anyCall 0, .exec 0 (mkCall 59 []) none]).hands.map
      fun w => (w.thread.alive, w.mem, w.errands.map Errand.site)) = [(false, 0, [.table, .init]), (true, 1, [])] ∧
    (world0.run [anyCall 0, .go 0, anyCall 0, .exec 0 (mkCall 59 []) none]).cells = [.running, .idle] := by
  decide +kernel

/-- A filter that answers every system call with EPERM. -/
def refusing : List SockFilter := [⟨0x06, 0, 0, 0x00050001⟩]

/-- The hypotheses of `C97_poisoned` are met by a thread under such a filter that makes the table. -/
example (s : Seed) : Kernel.enter { thread0 with filters := [refusing] } s.getrandom = .errno 1 := by
  have hr : ∀ w, Kernel.run (fun _ => 0) refusing w = some 0x00050001#32 := by
    intro w
    unfold Kernel.run Kernel.runFrom
    simp only [refusing, List.getElem?_cons_zero, Kernel.step]
    rfl
  simp only [Kernel.enter, Kernel.runFilters, List.foldl_cons, List.foldl_nil, hr, Option.getD_some]
  decide

example : Unmade ⟨[⟨{ thread0 with filters := [refusing] }, 0, false, [], [⟨100, 100⟩]⟩], [.idle]⟩ ∧
    ((World.run ⟨[⟨{ thread0 with filters := [refusing] }, 0, false, [], [⟨100, 100⟩]⟩], [.idle]⟩ [anyCall 0, .go 0]).hands.map
      fun w => (w.errands.map Errand.site, w.keys)) = [([.init], false)] := by
  refine ⟨⟨fun w hw => ?_, fun x hx => ?_⟩, by decide +kernel⟩
  · rw [List.mem_singleton.1 hw]; exact ⟨rfl, by decide⟩
  · rw [List.mem_singleton.1 hx]

end Props
