import Verif.Spec.Init
import Verif.Proofs.Stack

/-!
# Waiting for the promise table: invariants
-/
set_option autoImplicit false

namespace Spec
open Pledge Bpfvm Kernel

/-- Some call in the list is making the table. -/
def HasInit (fs : List Frame) : Prop := ∃ f ∈ fs, f.place = .init

/-- Above a call that makes the table there are only calls that wait for it. -/
def Tidy : List Frame → Prop
  | [] => True
  | f :: fs => (f.place ≠ .table → ¬ HasInit fs) ∧ Tidy fs

structure Sane (c : Crew) : Prop where
  mem : ∀ w ∈ c.workers, w.mem < c.cells.length
  tidy : ∀ w ∈ c.workers, Tidy w.frames
  run : ∀ w ∈ c.workers, HasInit w.frames → c.cells[w.mem]? = some .running
  one : ∀ (j k : Nat) wj wk, c.workers[j]? = some wj → c.workers[k]? = some wk → wj.mem = wk.mem → HasInit wj.frames →
    HasInit wk.frames → j = k

theorem not_hasInit_nil : ¬ HasInit [] := fun ⟨_, h, _⟩ => by cases h

theorem HasInit.cons {f : Frame} {fs : List Frame} (h : HasInit (f :: fs)) : f.place = .init ∨ HasInit fs := by
  obtain ⟨g, hg, hp⟩ := h
  rcases List.mem_cons.1 hg with rfl | hg
  · exact .inl hp
  · exact .inr ⟨g, hg, hp⟩

theorem HasInit.tail {f : Frame} {fs : List Frame} (h : HasInit fs) : HasInit (f :: fs) := by
  obtain ⟨g, hg, hp⟩ := h
  exact ⟨g, List.mem_cons_of_mem _ hg, hp⟩

/-- `c'` is `c` with other thread states, in which nobody has come to life. -/
structure Dim (c c' : Crew) : Prop where
  cells : c'.cells = c.cells
  back : ∀ (k : Nat) w', c'.workers[k]? = some w' → ∃ w, c.workers[k]? = some w ∧ w'.mem = w.mem ∧ w'.frames = w.frames ∧
    w'.keys = w.keys ∧ (w'.thread.alive = true → w.thread.alive = true)
  length : c'.workers.length = c.workers.length

theorem Dim.refl (c : Crew) : Dim c c := ⟨rfl, fun _ w h => ⟨w, h, rfl, rfl, rfl, id⟩, rfl⟩

theorem Dim.forth {c c' : Crew} (h : Dim c c') {k : Nat} {w : Worker} (hk : c.workers[k]? = some w) :
    ∃ w', c'.workers[k]? = some w' ∧ w'.mem = w.mem ∧ w'.frames = w.frames ∧ w'.keys = w.keys ∧
      (w'.thread.alive = true → w.thread.alive = true) := by
  have hlt : k < c'.workers.length := by
    rw [h.length]
    exact (List.getElem?_eq_some_iff.1 hk).1
  obtain ⟨w0, h1, h2⟩ := h.back k _ (List.getElem?_eq_getElem hlt)
  rw [hk] at h1
  cases h1
  exact ⟨_, List.getElem?_eq_getElem hlt, h2⟩

theorem Sane.dim {c c' : Crew} (h : Sane c) (hd : Dim c c') : Sane c' := by
  have lift : ∀ w' ∈ c'.workers, ∃ w ∈ c.workers, w'.mem = w.mem ∧ w'.frames = w.frames := by
    intro w' hw
    obtain ⟨k, hk⟩ := List.getElem?_of_mem hw
    obtain ⟨w, h1, h2, h3, _⟩ := hd.back k w' hk
    exact ⟨w, List.mem_of_getElem? h1, h2, h3⟩
  refine ⟨?_, ?_, ?_, ?_⟩
  · intro w' hw
    obtain ⟨w, h1, h2, h3⟩ := lift w' hw
    rw [hd.cells, h2]; exact h.mem w h1
  · intro w' hw
    obtain ⟨w, h1, h2, h3⟩ := lift w' hw
    rw [h3]; exact h.tidy w h1
  · intro w' hw hi
    obtain ⟨w, h1, h2, h3⟩ := lift w' hw
    rw [h3] at hi
    rw [hd.cells, h2]; exact h.run w h1 hi
  · intro j k wj wk hj hk hm ij ik
    obtain ⟨uj, a1, a2, a3, _⟩ := hd.back j wj hj
    obtain ⟨uk, b1, b2, b3, _⟩ := hd.back k wk hk
    rw [a3] at ij
    rw [b3] at ik
    exact h.one j k uj uk a1 b1 (by rw [← a2, ← b2, hm]) ij ik

theorem Orphaned.dim {c c' : Crew} {m : Nat} (h : Orphaned c m) (hd : Dim c c') : Orphaned c' m := by
  refine ⟨by rw [hd.cells]; exact h.1, fun w' hw hm => ?_⟩
  obtain ⟨k, hk⟩ := List.getElem?_of_mem hw
  obtain ⟨w, h1, h2, h3, _, h4⟩ := hd.back k w' hk
  rintro ⟨ha, f, hf, hp⟩
  exact h.2 w (List.mem_of_getElem? h1) (by rw [← h2, hm]) ⟨h4 ha, f, by rw [← h3]; exact hf, hp⟩

/-- Other thread states of which none has come to life. -/
theorem dim_withThreads (c : Crew) (s : System) (hl : s.length = c.workers.length)
    (hs : ∀ (k : Nat) t', s[k]? = some t' → ∃ t, c.threads[k]? = some t ∧ (t'.alive = true → t.alive = true)) :
    Dim c (c.withThreads s) := by
  refine ⟨rfl, ?_, ?_⟩
  · intro k w' hw
    unfold Crew.withThreads at hw
    rw [List.getElem?_zipWith] at hw
    cases hc : c.workers[k]? with
    | none => rw [hc] at hw; cases hw
    | some w =>
      cases ht : s[k]? with
      | none => rw [hc, ht] at hw; cases hw
      | some t' =>
        rw [hc, ht] at hw
        cases hw
        obtain ⟨t, h1, h2⟩ := hs k t' ht
        refine ⟨w, rfl, rfl, rfl, rfl, ?_⟩
        unfold Crew.threads at h1
        rw [List.getElem?_map, hc] at h1
        cases h1
        exact h2
  · unfold Crew.withThreads
    simp [List.length_zipWith, hl]

theorem dim_reap (c : Crew) (i : Nat) (pid : BitVec 32) (o : Outcome) : Dim c (c.withThreads (reap c.threads i pid o)) := by
  refine dim_withThreads c _ ?_ ?_
  · rw [reap_length]; simp [Crew.threads]
  · intro k t' h
    obtain ⟨t, h1, _, _, _, _, h2⟩ := reap_get _ _ _ _ _ _ h
    exact ⟨t, h1, h2⟩

theorem on_alive (s : System) (i : Nat) (f : Thread → Thread × Option Outcome) (j : Nat) (t' : Thread)
    (h : (s.on i f)[j]? = some t') : ∃ t, s[j]? = some t ∧ (t'.alive = true → t.alive = true) := by
  have hset : ∀ t u, s[i]? = some t → t.alive = true → (s.set i (f t).1)[j]? = some u →
      ∃ t0, s[j]? = some t0 ∧ (u.alive = true → t0.alive = true) := by
    intro t u hi ha hu
    rw [List.getElem?_set] at hu
    split at hu
    · rename_i hij
      subst hij
      split at hu
      · exact ⟨t, hi, fun _ => ha⟩
      · cases hu
    · exact ⟨u, hu, id⟩
  unfold System.on at h
  split at h
  · rename_i t hi
    split at h
    · rename_i ha
      split at h
      · obtain ⟨u, h1, _, _, _, _, h2⟩ := reap_get _ _ _ _ _ _ h
        obtain ⟨t0, g1, g2⟩ := hset t u hi ha h1
        exact ⟨t0, g1, fun x => g2 (h2 x)⟩
      · exact hset t t' hi ha h
    · exact ⟨t', h, id⟩
  · exact ⟨t', h, id⟩

theorem dim_op (c : Crew) (op : Op) (h1 : ∀ i b env ps v, op ≠ .pledge i b env ps v)
    (h2 : ∀ i d h pid tid, op ≠ .spawn i d h pid tid) : Dim c (c.withThreads (c.threads.step op)) := by
  have hl : ∀ i f, (c.threads.on i f).length = c.workers.length := by
    intro i f; rw [on_length]; simp [Crew.threads]
  cases op with
  | pledge i b env ps v => exact absurd rfl (h1 i b env ps v)
  | spawn i d h' pid tid => exact absurd rfl (h2 i d h' pid tid)
  | call i d h' => exact dim_withThreads c _ (hl _ _) (on_alive _ _ _)
  | setNnp i d h' fault => exact dim_withThreads c _ (hl _ _) (on_alive _ _ _)
  | setSeccomp i d h' f p => exact dim_withThreads c _ (hl _ _) (on_alive _ _ _)
  | cred i a => exact dim_withThreads c _ (hl i (fun t => ({ t with admin := a }, none))) (on_alive _ i (fun t => ({ t with admin := a }, none)))
  | crash i w =>
    exact dim_withThreads c _ (hl i (fun t => (t, some (if w then .killProcess else .killThread))))
      (on_alive _ i (fun t => (t, some (if w then .killProcess else .killThread))))

/-- No worker but `i` is making the table of memory `m`. -/
def NoOther (c : Crew) (i m : Nat) : Prop := ∀ (k : Nat) u, k ≠ i → c.workers[k]? = some u → u.mem = m → ¬ HasInit u.frames

theorem Sane.noOther_of_init {c : Crew} (h : Sane c) {i : Nat} {w : Worker} (hi : c.workers[i]? = some w) (hw : HasInit w.frames) :
    NoOther c i w.mem := fun k u hk hu hm hin => hk (h.one k i u w hu hi hm hin hw)

theorem Sane.noOther_of_cell {c : Crew} (h : Sane c) {m : Nat} (hc : c.cells[m]? ≠ some .running) (i : Nat) : NoOther c i m := by
  intro k u _ hu hm hin
  exact hc (by rw [← hm]; exact h.run u (List.mem_of_getElem? hu) hin)

/-- Worker `i` changes, and possibly the cell of its memory. -/
theorem Sane.upd {c : Crew} (h : Sane c) {i : Nat} {w : Worker} (hi : c.workers[i]? = some w) (w' : Worker) (cells' : List Cell)
    (hm : w'.mem = w.mem) (hc : cells' = c.cells ∨ ∃ x, cells' = c.cells.set w.mem x) (ht : Tidy w'.frames)
    (hr : HasInit w'.frames → cells'[w.mem]? = some .running)
    (ho : cells' = c.cells ∧ (HasInit w'.frames → HasInit w.frames) ∨ NoOther c i w.mem) :
    Sane ⟨c.workers.set i w', cells'⟩ := by
  have hlen : cells'.length = c.cells.length := by
    rcases hc with rfl | ⟨x, rfl⟩
    · rfl
    · exact List.length_set ..
  have hcell : ∀ m, m ≠ w.mem → cells'[m]? = c.cells[m]? := by
    intro m hne
    rcases hc with rfl | ⟨x, rfl⟩
    · rfl
    · exact List.getElem?_set_ne (fun h => hne h.symm)
  have hget : ∀ (k : Nat) u, (c.workers.set i w')[k]? = some u → (k = i ∧ u = w') ∨ (k ≠ i ∧ c.workers[k]? = some u) := by
    intro k u hu
    rw [List.getElem?_set] at hu
    split at hu
    · rename_i hki
      split at hu
      · cases hu; exact .inl ⟨hki.symm, rfl⟩
      · cases hu
    · rename_i hki
      exact .inr ⟨fun h => hki h.symm, hu⟩
  have hwmem := h.mem w (List.mem_of_getElem? hi)
  -- another worker of the same memory with a call making the table
  have other : ∀ (k : Nat) u, k ≠ i → c.workers[k]? = some u → u.mem = w.mem → HasInit u.frames →
      cells' = c.cells ∧ ¬ HasInit w'.frames := by
    intro k u hk hu hum hin
    rcases ho with ⟨h1, h2⟩ | hno
    · exact ⟨h1, fun h3 => hk (h.one k i u w hu hi hum hin (h2 h3))⟩
    · exact absurd hin (hno k u hk hu hum)
  refine ⟨?_, ?_, ?_, ?_⟩
  · intro u hu
    obtain ⟨k, hk⟩ := List.getElem?_of_mem hu
    rcases hget k u hk with ⟨_, rfl⟩ | ⟨_, hk'⟩
    · show u.mem < cells'.length
      rw [hm, hlen]; exact hwmem
    · show u.mem < cells'.length
      rw [hlen]; exact h.mem u (List.mem_of_getElem? hk')
  · intro u hu
    obtain ⟨k, hk⟩ := List.getElem?_of_mem hu
    rcases hget k u hk with ⟨_, rfl⟩ | ⟨_, hk'⟩
    · exact ht
    · exact h.tidy u (List.mem_of_getElem? hk')
  · intro u hu hin
    obtain ⟨k, hk⟩ := List.getElem?_of_mem hu
    show cells'[u.mem]? = _
    rcases hget k u hk with ⟨_, rfl⟩ | ⟨hne, hk'⟩
    · rw [hm]; exact hr hin
    · by_cases he : u.mem = w.mem
      · rw [(other k u hne hk' he hin).1]; exact h.run u (List.mem_of_getElem? hk') hin
      · rw [hcell _ he]; exact h.run u (List.mem_of_getElem? hk') hin
  · intro j k wj wk hj hk hmm ij ik
    rcases hget j wj hj with ⟨rfl, rfl⟩ | ⟨nj, hj'⟩ <;> rcases hget k wk hk with ⟨rfl, rfl⟩ | ⟨nk, hk'⟩
    · rfl
    · exact absurd ij (other k wk nk hk' (by rw [← hmm, hm]) ik).2
    · exact absurd ik (other j wj nj hj' (by rw [hmm, hm]) ij).2
    · exact h.one j k wj wk hj' hk' hmm ij ik

theorem Orphaned.upd {c : Crew} {m i : Nat} {w : Worker} (h : Orphaned c m) (w' : Worker)
    (cells' : List Cell) (hm : w'.mem = w.mem) (hc : cells' = c.cells ∨ ∃ x, cells' = c.cells.set w.mem x)
    (hr : w.mem = m → cells' = c.cells ∧ ¬ MakesTable w') : Orphaned ⟨c.workers.set i w', cells'⟩ m := by
  refine ⟨?_, ?_⟩
  · show cells'[m]? = _
    by_cases he : w.mem = m
    · rw [(hr he).1]; exact h.1
    · rcases hc with rfl | ⟨x, rfl⟩
      · exact h.1
      · rw [List.getElem?_set_ne he]; exact h.1
  · intro u hu hum
    obtain ⟨k, hk⟩ := List.getElem?_of_mem hu
    simp only at hk
    rw [List.getElem?_set] at hk
    split at hk
    · split at hk
      · cases hk
        exact (hr (by rw [← hm, hum])).2
      · cases hk
    · exact h.2 u (List.mem_of_getElem? hk) hum

/-! ## The steps -/

/-- What a step of the innermost call `f` of worker `w` at `i` can do. -/
inductive GoShape (c : Crew) (i : Nat) (w : Worker) (f : Frame) (rest : List Frame) : Crew → Prop
  | wait : f.place = .table → c.cells[w.mem]? = some .running → GoShape c i w f rest c
  | start : f.place = .table → c.cells[w.mem]? = some .idle →
      GoShape c i w f rest ⟨c.workers.set i { w with frames := { f with place := .init } :: rest }, c.cells.set w.mem .running⟩
  | made (w' : Worker) : f.place = .init → w'.mem = w.mem → w'.thread = w.thread → w'.frames = { f with place := .seed } :: rest →
      GoShape c i w f rest ⟨c.workers.set i w', c.cells.set w.mem .ready⟩
  | burst (c' : Crew) : f.place = .init → Dim ⟨c.workers.set i { w with frames := rest }, c.cells.set w.mem .poisoned⟩ c' →
      c'.threads = (⟨c.workers.set i { w with frames := rest }, c.cells.set w.mem .poisoned⟩ : Crew).threads → GoShape c i w f rest c'
  | died (c' : Crew) : f.place = .init → Dim ⟨c.workers.set i { w with frames := rest }, c.cells⟩ c' →
      (∀ u, c'.workers[i]? = some u → u.thread.alive = false) →
      (∃ o, askKeys f.call.env.handler w.thread f.call.seed = .error (.died o)) → GoShape c i w f rest c'
  | onward (w' : Worker) (p : Place) : f.place = .table ∧ p = .seed ∧ c.cells[w.mem]? = some .ready ∨ f.place = .seed ∧ p = .rest →
      w'.mem = w.mem → w'.thread = w.thread → w'.frames = { f with place := p } :: rest →
      GoShape c i w f rest ⟨c.workers.set i w', c.cells⟩
  | over (w' : Worker) (c' : Crew) : f.place = .table ∧ c.cells[w.mem]? = some .poisoned ∨ f.place = .seed ∨ f.place = .rest →
      w'.mem = w.mem → w'.frames = rest → Dim ⟨c.workers.set i w', c.cells⟩ c' → GoShape c i w f rest c'

theorem ends_dim (c : Crew) (i : Nat) (w : Worker) (r : PledgeRes) :
    Dim ⟨c.workers.set i { w with frames := w.frames.tail }, c.cells⟩ (c.ends i w r) := by
  unfold Crew.ends
  simp only
  cases r.death with
  | none => exact .refl _
  | some o => exact dim_reap _ _ _ _

/-- A thread that dies in a call is dead afterwards. -/
theorem ends_dead (c : Crew) (i : Nat) (w : Worker) (hi : i < c.workers.length) (r : PledgeRes) (o : Outcome) (hr : r.death = some o)
    (u : Worker) (hu : (c.ends i w r).workers[i]? = some u) : u.thread.alive = false := by
  unfold Crew.ends at hu
  simp only [hr, Crew.withThreads, Crew.threads] at hu
  rw [List.getElem?_zipWith] at hu
  have hw : (c.workers.set i { w with frames := w.frames.tail })[i]? = some { w with frames := w.frames.tail } := by
    rw [List.getElem?_set_self hi]
  have ht : ((c.workers.set i { w with frames := w.frames.tail }).map Worker.thread)[i]? = some w.thread := by
    rw [List.getElem?_map, hw]; rfl
  cases hx : (reap ((c.workers.set i { w with frames := w.frames.tail }).map Worker.thread) i w.thread.pid o)[i]? with
  | none => rw [hw, hx] at hu; cases hu
  | some t =>
    rw [hw, hx] at hu
    cases hu
    show t.alive = false
    unfold reap at hx
    split at hx
    · rw [List.getElem?_modify, ht] at hx
      simp at hx
      rw [← hx]
    · rw [List.getElem?_map, ht] at hx
      simp at hx
      rw [← hx]

theorem go_shape {c : Crew} {i : Nat} {w : Worker} {f : Frame} {rest : List Frame} (hs : Sane c) (hi : c.workers[i]? = some w)
    (hf : w.frames = f :: rest) : GoShape c i w f rest (c.advance i w f) := by
  have htail : w.frames.tail = rest := by rw [hf]; rfl
  have hlt : i < c.workers.length := (List.getElem?_eq_some_iff.1 hi).1
  have hmem := hs.mem w (List.mem_of_getElem? hi)
  unfold Crew.advance
  cases hp : f.place with
  | table =>
    simp only
    rw [List.getElem?_eq_getElem hmem]
    cases hc : c.cells[w.mem] with
    | ready =>
      simp only
      exact .onward _ .seed (.inl ⟨hp, rfl, by rw [List.getElem?_eq_getElem hmem, hc]⟩) rfl rfl (by rw [Worker.moved, htail])
    | idle =>
      simp only [Worker.moved, htail]
      exact .start hp (by rw [List.getElem?_eq_getElem hmem, hc])
    | poisoned =>
      simp only
      refine .over { w with frames := rest } _ (.inl ⟨hp, by rw [List.getElem?_eq_getElem hmem, hc]⟩) rfl rfl ?_
      have := ends_dim c i w .panic
      rw [htail] at this
      exact this
    | running => exact .wait hp (by rw [List.getElem?_eq_getElem hmem, hc])
  | init =>
    simp only
    split
    · exact .made _ hp rfl rfl (by rw [Worker.moved, htail])
    · split
      · exact .made _ hp rfl rfl (by rw [Worker.moved, htail])
      · refine .burst _ hp ?_ ?_
        · have := ends_dim { c with cells := c.cells.set w.mem .poisoned } i w .panic
          rw [htail] at this
          exact this
        · simp only [Crew.ends, PledgeRes.death, htail]
      · rename_i r hk hne
        have hdied : ∃ o, r = .died o := by
          have : r = .panic ∨ ∃ o, r = .died o := by
            unfold askKeys at hne
            simp only at hne
            split at hne
            · cases hne
            · split at hne
              · cases hne
              · injection hne with hne; exact .inl hne.symm
              · injection hne with hne; exact .inr ⟨_, hne.symm⟩
            · split at hne
              · split at hne
                · cases hne
                · injection hne with hne; exact .inl hne.symm
                · injection hne with hne; exact .inr ⟨_, hne.symm⟩
              · injection hne with hne; exact .inr ⟨_, hne.symm⟩
            · injection hne with hne; exact .inr ⟨_, hne.symm⟩
          rcases this with rfl | h
          · exact absurd rfl hk
          · exact h
        obtain ⟨o, rfl⟩ := hdied
        refine .died _ hp ?_ ?_ ⟨o, hne⟩
        · have := ends_dim c i w (.died o)
          rw [htail] at this
          exact this
        · exact ends_dead c i w hlt (.died o) o rfl
  | seed =>
    simp only
    split
    · exact .onward _ .rest (.inr ⟨hp, rfl⟩) rfl rfl (by rw [Worker.moved, htail])
    · split
      · exact .onward _ .rest (.inr ⟨hp, rfl⟩) rfl rfl (by rw [Worker.moved, htail])
      · rename_i r _
        refine .over { w with frames := rest } _ (.inr (.inl hp)) rfl rfl ?_
        have := ends_dim c i w r
        rw [htail] at this
        exact this
  | rest =>
    simp only
    refine .over { { w with thread := (pledgeOverride f.call.b f.call.env w.thread f.call.ps f.call.v).1 } with frames := rest } _
      (.inr (.inr hp)) rfl rfl ?_
    have := ends_dim c i { w with thread := (pledgeOverride f.call.b f.call.env w.thread f.call.ps f.call.v).1 }
      (pledgeOverride f.call.b f.call.env w.thread f.call.ps f.call.v).2
    simp only [htail] at this
    exact this

/-- What a turn can do. -/
inductive Shape (c : Crew) : Turn → Crew → Prop
  | dim (m : Turn) (c' : Crew) : Dim c c' → (∀ i call, m ≠ .enter i call) → (∀ i, m = .go i → c' = c) → Shape c m c'
  | skip (m : Turn) : Shape c m c
  | enter (i : Nat) (call : Call) (w : Worker) : c.workers[i]? = some w → w.thread.alive = true →
      Shape c (.enter i call) ⟨c.workers.set i { w with frames := ⟨call, .table⟩ :: w.frames }, c.cells⟩
  | go (i : Nat) (w : Worker) (f : Frame) (rest : List Frame) (c' : Crew) : c.workers[i]? = some w → w.thread.alive = true →
      w.frames = f :: rest → GoShape c i w f rest c' → Shape c (.go i) c'
  | fork (i : Nat) (d : SeccompData) (h : Option Int) (pid tid : BitVec 32) (w : Worker) : c.workers[i]? = some w →
      w.thread.alive = true → Shape c (.fork i d h pid tid)
        ⟨c.workers ++ [{ w with thread := { w.thread with pid := pid, tid := tid }, mem := c.cells.length }],
          c.cells ++ [c.cells[w.mem]?.getD .idle]⟩
  | clone (i : Nat) (d : SeccompData) (h : Option Int) (tid : BitVec 32) (w : Worker) : c.workers[i]? = some w →
      w.thread.alive = true → Shape c (.clone i d h tid) ⟨c.workers ++ [⟨{ w.thread with tid := tid }, w.mem, false, []⟩], c.cells⟩
  | exec (i : Nat) (d : SeccompData) (h : Option Int) (w : Worker) : c.workers[i]? = some w → w.thread.alive = true →
      Shape c (.exec i d h)
        ⟨(c.workers.map fun u => if u.mem = w.mem then { u with thread := { u.thread with alive := false } } else u) ++
            [⟨{ w.thread with tid := w.thread.pid }, c.cells.length, false, []⟩], c.cells ++ [.idle]⟩

theorem step_shape {c : Crew} (hs : Sane c) (m : Turn) : Shape c m (c.step m) := by
  have hcall : ∀ i d h m, (∀ i call, m ≠ .enter i call) → (∀ i, m ≠ .go i) → Shape c m (c.withThreads (c.threads.step (.call i d h))) :=
    fun i d h m h1 h2 => .dim m _ (dim_op c _ (by simp) (by simp)) h1 (fun j hj => absurd hj (h2 j))
  cases m with
  | enter i call =>
    simp only [Crew.step]
    split
    · rename_i w hi
      split
      · rename_i ha; exact .enter i call w hi ha
      · exact .skip _
    · exact .skip _
  | go i =>
    simp only [Crew.step]
    split
    · rename_i w hi
      split
      · rename_i f rest hf
        split
        · rename_i ha; exact .go i w f rest _ hi ha hf (go_shape hs hi hf)
        · exact .skip _
      · exact .skip _
    · exact .skip _
  | fork i d h pid tid =>
    simp only [Crew.step]
    split
    · rename_i w hi
      split
      · rename_i ha; exact .fork i d h pid tid w hi ha.1
      · exact hcall _ _ _ _ (by simp) (by simp)
    · exact .skip _
  | clone i d h tid =>
    simp only [Crew.step]
    split
    · rename_i w hi
      split
      · rename_i ha; exact .clone i d h tid w hi ha.1
      · exact hcall _ _ _ _ (by simp) (by simp)
    · exact .skip _
  | exec i d h =>
    simp only [Crew.step]
    split
    · rename_i w hi
      split
      · rename_i ha; exact .exec i d h w hi ha.1
      · exact hcall _ _ _ _ (by simp) (by simp)
    · exact .skip _
  | other op =>
    simp only [Crew.step]
    split
    · exact .skip _
    · exact .skip _
    · rename_i h1 h2
      exact .dim _ _ (dim_op c op h1 h2) (by simp) (by simp)

theorem sane_go {c c' : Crew} (hs : Sane c) {i : Nat} {w : Worker} {f : Frame} {rest : List Frame} (hi : c.workers[i]? = some w)
    (hf : w.frames = f :: rest) (h : GoShape c i w f rest c') : Sane c' := by
  have hw := List.mem_of_getElem? hi
  have ht := hs.tidy w hw
  have hr := hs.run w hw
  rw [hf] at ht hr
  have hmem := hs.mem w hw
  have hset : ∀ x, (c.cells.set w.mem x)[w.mem]? = some x := fun x => List.getElem?_set_self hmem
  have up : HasInit rest → HasInit w.frames := fun h => by rw [hf]; exact h.tail
  cases h with
  | wait => exact hs
  | start h1 h2 =>
    have hno : ¬ HasInit rest := fun h => by rw [hr h.tail] at h2; cases h2
    exact hs.upd hi _ _ rfl (.inr ⟨_, rfl⟩) ⟨fun _ => hno, ht.2⟩ (fun _ => hset _)
      (.inr (hs.noOther_of_cell (by rw [h2]; simp) i))
  | made w' h1 h2 _ h3 =>
    have hno : ¬ HasInit rest := ht.1 (by rw [h1]; simp)
    have hno' : ¬ HasInit w'.frames := by
      rw [h3]
      intro h
      rcases h.cons with h | h
      · cases h
      · exact hno h
    exact hs.upd hi w' _ h2 (.inr ⟨_, rfl⟩) (by rw [h3]; exact ⟨fun _ => hno, ht.2⟩) (fun h => absurd h hno')
      (.inr (hs.noOther_of_init hi ⟨f, by rw [hf]; simp, h1⟩))
  | burst _ h1 h2 =>
    have hno : ¬ HasInit rest := ht.1 (by rw [h1]; simp)
    exact (hs.upd hi { w with frames := rest } _ rfl (.inr ⟨_, rfl⟩) ht.2 (fun h => absurd h hno)
      (.inr (hs.noOther_of_init hi ⟨f, by rw [hf]; simp, h1⟩))).dim h2
  | died _ h1 h2 h3 =>
    exact (hs.upd hi { w with frames := rest } _ rfl (.inl rfl) ht.2 (fun h => hr h.tail) (.inl ⟨rfl, up⟩)).dim h2
  | onward w' p h1 h2 _ h3 =>
    have hno : ¬ HasInit rest := by
      rcases h1 with ⟨_, _, h1⟩ | ⟨h1, _⟩
      · intro h; rw [hr h.tail] at h1; cases h1
      · exact ht.1 (by rw [h1]; simp)
    have hno' : ¬ HasInit w'.frames := by
      rw [h3]
      intro h
      rcases h.cons with h | h
      · rcases h1 with ⟨_, h1, _⟩ | ⟨_, h1⟩ <;> rw [h1] at h <;> cases h
      · exact hno h
    exact hs.upd hi w' _ h2 (.inl rfl) (by rw [h3]; exact ⟨fun _ => hno, ht.2⟩) (fun h => absurd h hno')
      (.inl ⟨rfl, fun h => absurd h hno'⟩)
  | over w' _ h1 h2 h3 h4 =>
    exact (hs.upd hi w' _ h2 (.inl rfl) (by rw [h3]; exact ht.2) (fun h => hr (by rw [h3] at h; exact h.tail))
      (.inl ⟨rfl, fun h => up (by rw [h3] at h; exact h)⟩)).dim h4

theorem getElem?_snoc {α : Type _} {l : List α} {x y : α} {k : Nat} (h : (l ++ [x])[k]? = some y) :
    l[k]? = some y ∨ (k = l.length ∧ y = x) := by
  rcases Nat.lt_trichotomy k l.length with hk | hk | hk
  · rw [List.getElem?_append_left hk] at h; exact .inl h
  · subst hk; simp at h; exact .inr ⟨rfl, h.symm⟩
  · rw [List.getElem?_eq_none (by simp; omega)] at h; cases h

theorem getElem?_old {α : Type _} {l : List α} {x y : α} {k : Nat} (h : l[k]? = some y) : (l ++ [x])[k]? = some y := by
  rw [List.getElem?_append_left (List.getElem?_eq_some_iff.1 h).1]; exact h

/-- The workers after an exec. -/
theorem exec_get {ws : List Worker} {w n : Worker} {k : Nat} {u : Worker}
    (h : ((ws.map fun u => if u.mem = w.mem then { u with thread := { u.thread with alive := false } } else u) ++ [n])[k]? = some u) :
    (k = ws.length ∧ u = n) ∨ (k < ws.length ∧ ∃ u0, ws[k]? = some u0 ∧ u.mem = u0.mem ∧ u.frames = u0.frames ∧ u.keys = u0.keys ∧
      (u0.mem = w.mem → u.thread.alive = false) ∧ (u0.mem ≠ w.mem → u = u0)) := by
  rcases getElem?_snoc h with h | ⟨h1, h2⟩
  · refine .inr ⟨by have := (List.getElem?_eq_some_iff.1 h).1; rwa [List.length_map] at this, ?_⟩
    rw [List.getElem?_map] at h
    cases hk : ws[k]? with
    | none => rw [hk] at h; cases h
    | some u0 =>
      rw [hk] at h
      simp only [Option.map_some, Option.some.injEq] at h
      subst h
      refine ⟨u0, rfl, ?_⟩
      by_cases hm : u0.mem = w.mem
      · rw [if_pos hm]; exact ⟨rfl, rfl, rfl, fun _ => rfl, fun h => absurd hm h⟩
      · rw [if_neg hm]; exact ⟨rfl, rfl, rfl, fun h => absurd h hm, fun _ => rfl⟩
  · exact .inl ⟨by rwa [List.length_map] at h1, h2⟩

theorem sane_shape {c c' : Crew} {m : Turn} (hs : Sane c) (h : Shape c m c') : Sane c' := by
  cases h with
  | dim _ _ hd => exact hs.dim hd
  | skip => exact hs
  | enter i call w hi ha =>
    have hw := List.mem_of_getElem? hi
    have hin : HasInit (⟨call, .table⟩ :: w.frames) → HasInit w.frames := fun h => by
      rcases h.cons with h | h
      · cases h
      · exact h
    exact hs.upd hi _ _ rfl (.inl rfl) ⟨fun h => absurd rfl h, hs.tidy w hw⟩ (fun h => hs.run w hw (hin h)) (.inl ⟨rfl, hin⟩)
  | go i w f rest _ hi ha hf hg => exact sane_go hs hi hf hg
  | fork i d h pid tid w hi ha =>
    have hw := List.mem_of_getElem? hi
    have hmem := hs.mem w hw
    have old : ∀ m, m < c.cells.length → (c.cells ++ [c.cells[w.mem]?.getD .idle])[m]? = c.cells[m]? :=
      fun m hm => List.getElem?_append_left hm
    refine ⟨?_, ?_, ?_, ?_⟩
    · intro u hu
      simp only [List.mem_append, List.mem_singleton] at hu
      rcases hu with hu | rfl
      · have := hs.mem u hu; simp; omega
      · simp
    · intro u hu
      simp only [List.mem_append, List.mem_singleton] at hu
      rcases hu with hu | rfl
      · exact hs.tidy u hu
      · exact hs.tidy w hw
    · intro u hu hin
      simp only [List.mem_append, List.mem_singleton] at hu
      rcases hu with hu | rfl
      · simp only; rw [old _ (hs.mem u hu)]; exact hs.run u hu hin
      · simp [hs.run w hw hin]
    · intro j k wj wk hj hk hm ij ik
      rcases getElem?_snoc hj with hj | ⟨rfl, rfl⟩ <;> rcases getElem?_snoc hk with hk | ⟨rfl, rfl⟩
      · exact hs.one j k wj wk hj hk hm ij ik
      · have := hs.mem wj (List.mem_of_getElem? hj)
        simp only at hm; omega
      · have := hs.mem wk (List.mem_of_getElem? hk)
        simp only at hm; omega
      · rfl
  | clone i d h tid w hi ha =>
    have hw := List.mem_of_getElem? hi
    refine ⟨?_, ?_, ?_, ?_⟩
    · intro u hu
      simp only [List.mem_append, List.mem_singleton] at hu
      rcases hu with hu | rfl
      · exact hs.mem u hu
      · exact hs.mem w hw
    · intro u hu
      simp only [List.mem_append, List.mem_singleton] at hu
      rcases hu with hu | rfl
      · exact hs.tidy u hu
      · trivial
    · intro u hu hin
      simp only [List.mem_append, List.mem_singleton] at hu
      rcases hu with hu | rfl
      · exact hs.run u hu hin
      · exact absurd hin not_hasInit_nil
    · intro j k wj wk hj hk hm ij ik
      rcases getElem?_snoc hj with hj | ⟨rfl, rfl⟩ <;> rcases getElem?_snoc hk with hk | ⟨rfl, rfl⟩
      · exact hs.one j k wj wk hj hk hm ij ik
      · exact absurd ik not_hasInit_nil
      · exact absurd ij not_hasInit_nil
      · rfl
  | exec i d h w hi ha =>
    have old : ∀ m, m < c.cells.length → (c.cells ++ [Cell.idle])[m]? = c.cells[m]? := fun m hm => List.getElem?_append_left hm
    refine ⟨?_, ?_, ?_, ?_⟩
    · intro u hu
      obtain ⟨k, hk⟩ := List.getElem?_of_mem hu
      rcases exec_get hk with ⟨_, rfl⟩ | ⟨_, u0, h1, h2, _⟩
      · simp
      · have := hs.mem u0 (List.mem_of_getElem? h1); simp; omega
    · intro u hu
      obtain ⟨k, hk⟩ := List.getElem?_of_mem hu
      rcases exec_get hk with ⟨_, rfl⟩ | ⟨_, u0, h1, h2, h3, _⟩
      · trivial
      · rw [h3]; exact hs.tidy u0 (List.mem_of_getElem? h1)
    · intro u hu hin
      obtain ⟨k, hk⟩ := List.getElem?_of_mem hu
      rcases exec_get hk with ⟨_, rfl⟩ | ⟨_, u0, h1, h2, h3, _⟩
      · exact absurd hin not_hasInit_nil
      · have := List.mem_of_getElem? h1
        rw [h3] at hin
        simp only
        rw [h2, old _ (hs.mem u0 this)]
        exact hs.run u0 this hin
    · intro j k wj wk hj hk hm ij ik
      rcases exec_get hj with ⟨_, rfl⟩ | ⟨_, uj, h1, h2, h3, _⟩
      · exact absurd ij not_hasInit_nil
      · rcases exec_get hk with ⟨_, rfl⟩ | ⟨_, uk, g1, g2, g3, _⟩
        · exact absurd ik not_hasInit_nil
        · rw [h3] at ij
          rw [g3] at ik
          exact hs.one j k uj uk h1 g1 (by rw [← h2, ← g2, hm]) ij ik

theorem sane_step {c : Crew} (hs : Sane c) (m : Turn) : Sane (c.step m) := sane_shape hs (step_shape hs m)

theorem sane_unused {c : Crew} (h : Unused c) : Sane c := by
  refine ⟨fun w hw => (h.1 w hw).2, fun w hw => by rw [(h.1 w hw).1]; trivial, fun w hw hi => ?_, fun j k wj wk hj hk _ ij _ => ?_⟩
  · rw [(h.1 w hw).1] at hi; exact absurd hi not_hasInit_nil
  · rw [(h.1 wj (List.mem_of_getElem? hj)).1] at ij; exact absurd ij not_hasInit_nil

theorem sane_run {c : Crew} (hs : Sane c) (ms : List Turn) : Sane (c.run ms) := by
  induction ms generalizing c with
  | nil => exact hs
  | cons m ms ih => exact ih (sane_step hs m)

/-! ## Orphans -/

theorem notMakes_table {w : Worker} {f : Frame} {rest : List Frame} (hf : w.frames = f :: rest) (hp : f.place ≠ .init) :
    ¬ MakesTable w := by
  rintro ⟨_, g, hg, hq⟩
  rw [hf] at hg
  cases hg
  exact hp hq

theorem notMakes_rest {w : Worker} (h : ¬ HasInit w.frames) : ¬ MakesTable w := by
  rintro ⟨_, g, hg, hq⟩
  exact h ⟨g, List.mem_of_mem_head? hg, hq⟩

theorem orphan_go {c c' : Crew} (hs : Sane c) {i m : Nat} {w : Worker} {f : Frame} {rest : List Frame} (hi : c.workers[i]? = some w)
    (ha : w.thread.alive = true) (hf : w.frames = f :: rest) (h : GoShape c i w f rest c') (ho : Orphaned c m) : Orphaned c' m := by
  have hw := List.mem_of_getElem? hi
  have ht := hs.tidy w hw
  rw [hf] at ht
  -- a worker of this memory is not making the table
  have hni : w.mem = m → f.place ≠ .init := fun hm hp => ho.2 w hw hm ⟨ha, f, by rw [hf]; rfl, hp⟩
  have hrest : f.place ≠ .table → ¬ HasInit rest := ht.1
  cases h with
  | wait => exact ho
  | start h1 h2 =>
    refine ho.upd _ _ rfl (.inr ⟨_, rfl⟩) fun hm => ?_
    rw [hm, ho.1] at h2; cases h2
  | made w' h1 h2 _ h3 => exact ho.upd w' _ h2 (.inr ⟨_, rfl⟩) fun hm => absurd h1 (hni hm)
  | burst _ h1 h2 => exact (ho.upd { w with frames := rest } _ rfl (.inr ⟨_, rfl⟩) fun hm => absurd h1 (hni hm)).dim h2
  | died _ h1 h2 => exact (ho.upd { w with frames := rest } _ rfl (.inl rfl) fun hm => absurd h1 (hni hm)).dim h2
  | onward w' p h1 h2 _ h3 =>
    refine ho.upd w' _ h2 (.inl rfl) fun _ => ⟨rfl, notMakes_table h3 ?_⟩
    rcases h1 with ⟨_, rfl, _⟩ | ⟨_, rfl⟩ <;> simp
  | over w' _ h1 h2 h3 h4 =>
    refine (ho.upd w' _ h2 (.inl rfl) fun hm => ⟨rfl, notMakes_rest ?_⟩).dim h4
    rw [h3]
    rcases h1 with ⟨_, h1⟩ | h1 | h1
    · rw [hm, ho.1] at h1; cases h1
    · exact hrest (by rw [h1]; simp)
    · exact hrest (by rw [h1]; simp)

theorem orphan_shape {c c' : Crew} {t : Turn} {m : Nat} (hs : Sane c) (h : Shape c t c') (ho : Orphaned c m) : Orphaned c' m := by
  have hlt : m < c.cells.length := (List.getElem?_eq_some_iff.1 ho.1).1
  cases h with
  | dim _ _ hd => exact ho.dim hd
  | skip => exact ho
  | enter i call w hi ha => exact ho.upd _ _ rfl (.inl rfl) fun _ => ⟨rfl, notMakes_table rfl (by simp)⟩
  | go i w f rest _ hi ha hf hg => exact orphan_go hs hi ha hf hg ho
  | fork i d h pid tid w hi ha =>
    refine ⟨by rw [List.getElem?_append_left hlt]; exact ho.1, fun u hu hum => ?_⟩
    simp only [List.mem_append, List.mem_singleton] at hu
    rcases hu with hu | rfl
    · exact ho.2 u hu hum
    · simp only at hum; omega
  | clone i d h tid w hi ha =>
    refine ⟨ho.1, fun u hu hum => ?_⟩
    simp only [List.mem_append, List.mem_singleton] at hu
    rcases hu with hu | rfl
    · exact ho.2 u hu hum
    · exact notMakes_rest not_hasInit_nil
  | exec i d h w hi ha =>
    refine ⟨by rw [List.getElem?_append_left hlt]; exact ho.1, fun u hu hum => ?_⟩
    obtain ⟨k, hk⟩ := List.getElem?_of_mem hu
    rcases exec_get hk with ⟨_, rfl⟩ | ⟨_, u0, h1, h2, h3, _, h4, h5⟩
    · exact notMakes_rest not_hasInit_nil
    · by_cases hm : u0.mem = w.mem
      · rintro ⟨hal, _⟩
        rw [h4 hm] at hal; cases hal
      · rw [h5 hm] at hum ⊢
        exact ho.2 u0 (List.mem_of_getElem? h1) hum

/-- A call that waits in an orphaned memory goes on waiting, unless the thread dies. -/
def Waits (c : Crew) (m i : Nat) (f : Frame) (rest : List Frame) : Prop :=
  ∃ w, c.workers[i]? = some w ∧ (w.thread.alive = false ∨ w.mem = m ∧
    ∃ pre, (∀ g ∈ pre, Frame.place g = .table) ∧ w.frames = pre ++ f :: rest)

theorem Waits.dim {c c' : Crew} {m i : Nat} {f : Frame} {rest : List Frame} (h : Waits c m i f rest) (hd : Dim c c') :
    Waits c' m i f rest := by
  obtain ⟨w, hi, hw⟩ := h
  obtain ⟨w', h1, h2, h3, _, h4⟩ := hd.forth hi
  refine ⟨w', h1, ?_⟩
  rcases hw with hw | hw
  · left
    cases hx : w'.thread.alive with
    | false => rfl
    | true => rw [h4 hx] at hw; cases hw
  · right; rw [h2, h3]; exact hw

theorem Waits.other {c : Crew} {m i j : Nat} {f : Frame} {rest : List Frame} (h : Waits c m i f rest) (hne : j ≠ i) (w' : Worker)
    (cells' : List Cell) : Waits ⟨c.workers.set j w', cells'⟩ m i f rest := by
  obtain ⟨w, hi, hw⟩ := h
  exact ⟨w, by simp only; rw [List.getElem?_set_ne hne]; exact hi, hw⟩

theorem waits_shape {c c' : Crew} {t : Turn} {m i : Nat} {f : Frame} {rest : List Frame}
    (hp : f.place = .table) (h : Shape c t c') (ho : Orphaned c m) (hw : Waits c m i f rest) : Waits c' m i f rest := by
  cases h with
  | dim _ _ hd => exact hw.dim hd
  | skip => exact hw
  | enter j call w hj ha =>
    by_cases hne : j = i
    · subst hne
      obtain ⟨w0, h0, hw⟩ := hw
      rw [hj] at h0
      cases h0
      refine ⟨_, List.getElem?_set_self (List.getElem?_eq_some_iff.1 hj).1, ?_⟩
      rcases hw with hw | ⟨hw, pre, h1, h2⟩
      · exact .inl hw
      · refine .inr ⟨hw, ⟨call, .table⟩ :: pre, ?_, by rw [h2]; rfl⟩
        intro g hg
        rcases List.mem_cons.1 hg with rfl | hg
        · rfl
        · exact h1 g hg
    · exact hw.other hne _ _
  | go j w g rs _ hj ha hf hg =>
    by_cases hne : j = i
    · subst hne
      obtain ⟨w0, h0, hw⟩ := hw
      rw [hj] at h0
      cases h0
      by_cases hmm : w.mem = m
      · have htop : g.place = .table := by
          rcases hw with hw | ⟨_, pre, h1, h2⟩
          · rw [ha] at hw; cases hw
          · rw [hf] at h2
            cases pre with
            | nil => simp only [List.nil_append, List.cons.injEq] at h2; rw [h2.1]; exact hp
            | cons a pre => simp only [List.cons_append, List.cons.injEq] at h2; rw [h2.1]; exact h1 a (by simp)
        have hcell : c.cells[w.mem]? = some .running := by rw [hmm]; exact ho.1
        cases hg with
        | wait => exact ⟨w, hj, hw⟩
        | start h1 h2 => rw [hcell] at h2; cases h2
        | made w' h1 => rw [htop] at h1; cases h1
        | burst _ h1 => rw [htop] at h1; cases h1
        | died _ h1 => rw [htop] at h1; cases h1
        | onward w' p h1 =>
          rcases h1 with ⟨_, _, h1⟩ | ⟨h1, _⟩
          · rw [hcell] at h1; cases h1
          · rw [htop] at h1; cases h1
        | over w' _ h1 =>
          rcases h1 with ⟨_, h1⟩ | h1 | h1
          · rw [hcell] at h1; cases h1
          · rw [htop] at h1; cases h1
          · rw [htop] at h1; cases h1
      · rcases hw with hw | ⟨hw, _⟩
        · rw [ha] at hw; cases hw
        · exact absurd hw hmm
    · cases hg with
      | wait => exact hw
      | start h1 h2 => exact hw.other hne _ _
      | made w' h1 h2 => exact hw.other hne _ _
      | burst _ h1 h2 => exact (hw.other hne { w with frames := rs } _).dim h2
      | died _ h1 h2 => exact (hw.other hne { w with frames := rs } _).dim h2
      | onward w' p h1 h2 => exact hw.other hne _ _
      | over w' _ h1 h2 h3 h4 => exact (hw.other hne w' _).dim h4
  | fork j d h pid tid w hj ha =>
    obtain ⟨w0, h0, hw⟩ := hw
    exact ⟨w0, getElem?_old h0, hw⟩
  | clone j d h tid w hj ha =>
    obtain ⟨w0, h0, hw⟩ := hw
    exact ⟨w0, getElem?_old h0, hw⟩
  | exec j d h w hj ha =>
    obtain ⟨w0, h0, hw⟩ := hw
    have hlt := (List.getElem?_eq_some_iff.1 h0).1
    have hget : ((c.workers.map fun u => if u.mem = w.mem then { u with thread := { u.thread with alive := false } } else u) ++
        [⟨{ w.thread with tid := w.thread.pid }, c.cells.length, false, []⟩])[i]? = some _ := List.getElem?_eq_getElem (by simp; omega)
    refine ⟨_, hget, ?_⟩
    rcases exec_get hget with ⟨rfl, _⟩ | ⟨_, u0, h1, h2, h3, _, h4, h5⟩
    · omega
    · rw [h0] at h1
      cases h1
      by_cases hmm : w0.mem = w.mem
      · exact .inl (h4 hmm)
      · rw [h5 hmm]; exact hw

/-! ## Without cuts, a table that is being made has a living maker -/

def Live (c : Crew) : Prop :=
  ∀ m, c.cells[m]? = some .running → (∃ u ∈ c.workers, u.mem = m ∧ u.thread.alive = true) →
    ∃ (j : Nat) (w : Worker), c.workers[j]? = some w ∧ w.mem = m ∧ MakesTable w

theorem live_keep {c : Crew} {t : Turn} (hl : Live c) (hc : ¬ Cut c t) {m : Nat} (hrun : c.cells[m]? = some .running)
    (hin : ∃ u ∈ c.workers, u.mem = m ∧ u.thread.alive = true)
    (hin' : ∃ u ∈ (c.step t).workers, u.mem = m ∧ u.thread.alive = true)
    (hj : ∀ (j : Nat) w, c.workers[j]? = some w → w.mem = m → MakesTable w →
      ∃ w', (c.step t).workers[j]? = some w' ∧ (w'.thread.alive = true → w'.mem = m ∧ w'.frames = w.frames)) :
    ∃ (j : Nat) (w : Worker), (c.step t).workers[j]? = some w ∧ w.mem = m ∧ MakesTable w := by
  obtain ⟨j, w, h1, h2, h3⟩ := hl m hrun hin
  obtain ⟨w', g1, g2⟩ := hj j w h1 h2 h3
  cases ha : w'.thread.alive with
  | true =>
    obtain ⟨_, f, hf, hp⟩ := h3
    exact ⟨j, w', g1, (g2 ha).1, ha, f, by rw [(g2 ha).2]; exact hf, hp⟩
  | false =>
    refine absurd ?_ hc
    obtain ⟨u, hu, hum, hua⟩ := hin'
    refine ⟨j, w, h1, h3, .inr (.inr ⟨fun w'' h => ?_, u, hu, by rw [hum, h2], hua⟩)⟩
    rw [g1] at h
    cases h
    exact ha

theorem set_cases {ws : List Worker} {i : Nat} {w' : Worker} {k : Nat} {u : Worker} (h : (ws.set i w')[k]? = some u) :
    (k = i ∧ u = w') ∨ (k ≠ i ∧ ws[k]? = some u) := by
  rw [List.getElem?_set] at h
  split at h
  · rename_i hki
    split at h
    · cases h; exact .inl ⟨hki.symm, rfl⟩
    · cases h
  · rename_i hki
    exact .inr ⟨fun h => hki h.symm, h⟩

theorem live_step {c : Crew} {t : Turn} (hs : Sane c) (hl : Live c) (hc : ¬ Cut c t) : Live (c.step t) := by
  have hshape := step_shape hs t
  intro m hrun hin'
  -- the state after the turn is a worker put at `i` and then threads dying
  have put : ∀ (i : Nat) (w w' : Worker) (cells' : List Cell), c.workers[i]? = some w → w'.mem = w.mem →
      Dim ⟨c.workers.set i w', cells'⟩ (c.step t) → (w'.thread.alive = true → w.thread.alive = true) →
      (∃ u ∈ c.workers, u.mem = m ∧ u.thread.alive = true) ∧
      ∀ (j : Nat) wj, j ≠ i → c.workers[j]? = some wj → ∃ w', (c.step t).workers[j]? = some w' ∧ w'.mem = wj.mem ∧ w'.frames = wj.frames := by
    intro i w w' cells' hi hm hd ha
    constructor
    · obtain ⟨u, hu, hum, hua⟩ := hin'
      obtain ⟨k, hk⟩ := List.getElem?_of_mem hu
      obtain ⟨v, h1, h2, _, _, h3⟩ := hd.back k u hk
      rcases set_cases h1 with ⟨rfl, rfl⟩ | ⟨_, h1⟩
      · exact ⟨w, List.mem_of_getElem? hi, by rw [← hm, ← h2, hum], ha (h3 hua)⟩
      · exact ⟨v, List.mem_of_getElem? h1, by rw [← h2, hum], h3 hua⟩
    · intro j wj hne hj
      obtain ⟨w'', g1, g2, g3, _⟩ := hd.forth (k := j) (w := wj) (by simp only; rw [List.getElem?_set_ne (fun h => hne h.symm)]; exact hj)
      exact ⟨w'', g1, g2, g3⟩
  generalize hstep : c.step t = c' at hshape
  have hstep := hstep
  cases hshape with
  | dim _ _ hd =>
    rw [← hstep] at hd
    rw [← hstep]
    rw [hd.cells] at hrun
    refine live_keep hl hc hrun ?_ hin' ?_
    · obtain ⟨u, hu, hum, hua⟩ := hin'
      obtain ⟨k, hk⟩ := List.getElem?_of_mem hu
      obtain ⟨v, h1, h2, _, _, h3⟩ := hd.back k u hk
      exact ⟨v, List.mem_of_getElem? h1, by rw [← h2, hum], h3 hua⟩
    · intro j w hj hm _
      obtain ⟨w', g1, g2, g3, _⟩ := hd.forth hj
      exact ⟨w', g1, fun _ => ⟨by rw [g2, hm], g3⟩⟩
  | skip =>
    rw [hstep] at hrun hin'
    exact hl m hrun hin'
  | enter i call w hi ha =>
    have hd : Dim ⟨c.workers.set i { w with frames := ⟨call, .table⟩ :: w.frames }, c.cells⟩ (c.step (.enter i call)) := by
      rw [hstep]; exact .refl _
    obtain ⟨p1, p2⟩ := put i w { w with frames := ⟨call, .table⟩ :: w.frames } c.cells hi rfl hd id
    have hrun : c.cells[m]? = some .running := by rw [hd.cells] at hrun; exact hrun
    rw [← hstep]
    refine live_keep hl hc hrun p1 hin' fun j wj hj hm hmt => ?_
    by_cases hne : j = i
    · subst hne
      exact absurd ⟨j, wj, hj, hmt, .inl ⟨call, rfl⟩⟩ hc
    · obtain ⟨w', g1, g2, g3⟩ := p2 j wj hne hj
      exact ⟨w', g1, fun _ => ⟨by rw [g2, hm], g3⟩⟩
  | go i w f rest _ hi ha hf hg =>
    have hwm := List.mem_of_getElem? hi
    have hlt := (List.getElem?_eq_some_iff.1 hi).1
    have hmem := hs.mem w hwm
    -- whatever changes, only the maker itself needs a look
    have fin : ∀ (w' : Worker) (cells' : List Cell), w'.mem = w.mem → Dim ⟨c.workers.set i w', cells'⟩ (c.step (.go i)) →
        (c.cells[m]? = some .running) →
        (w.mem = m → f.place = .init → ∀ u, (c.step (.go i)).workers[i]? = some u → u.thread.alive = false) →
        ∃ (j : Nat) (w : Worker), (c.step (.go i)).workers[j]? = some w ∧ w.mem = m ∧ MakesTable w := by
      intro w' cells' hm hd hrun hdead
      obtain ⟨p1, p2⟩ := put i w w' cells' hi hm hd (fun _ => ha)
      refine live_keep hl hc hrun p1 hin' fun j wj hj hjm hmt => ?_
      by_cases hne : j = i
      · subst hne
        rw [hi] at hj
        cases hj
        obtain ⟨w'', g1, _⟩ := hd.forth (k := j) (w := w') (List.getElem?_set_self hlt)
        refine ⟨w'', g1, fun hx => ?_⟩
        obtain ⟨_, g, hg1, hg2⟩ := hmt
        rw [hf] at hg1
        cases hg1
        rw [hdead hjm hg2 w'' g1] at hx
        cases hx
      · obtain ⟨w'', g1, g2, g3⟩ := p2 j wj hne hj
        exact ⟨w'', g1, fun _ => ⟨by rw [g2, hjm], g3⟩⟩
    have cellOther : ∀ x, x ≠ .running → (c.cells.set w.mem x)[m]? = some .running → c.cells[m]? = some .running ∧ w.mem ≠ m := by
      intro x hx h
      by_cases hm : w.mem = m
      · subst hm; rw [List.getElem?_set_self hmem] at h; cases h; exact absurd rfl hx
      · rw [List.getElem?_set_ne hm] at h; exact ⟨h, hm⟩
    rw [hstep] at hrun
    rw [← hstep]
    cases hg with
    | wait h1 h2 =>
      have hd : Dim ⟨c.workers.set i w, c.cells⟩ (c.step (.go i)) := by
        rw [hstep]
        have : c.workers.set i w = c.workers := by
          apply List.ext_getElem?
          intro k
          rw [List.getElem?_set]
          split
          · rename_i hk; subst hk; first | rw [if_pos hlt, hi] | (rw [hi])
          · rfl
        rw [this]
        exact .refl _
      exact fin w _ rfl hd hrun fun _ hp => by rw [h1] at hp; cases hp
    | start h1 h2 =>
      by_cases hm : w.mem = m
      · refine ⟨i, { w with frames := { f with place := .init } :: rest }, by rw [hstep]; exact List.getElem?_set_self hlt, hm, ha, _, rfl, rfl⟩
      · refine fin { w with frames := { f with place := .init } :: rest } (c.cells.set w.mem .running) rfl (by rw [hstep]; exact .refl _) ?_ fun h => absurd h hm
        simp only at hrun
        rw [List.getElem?_set_ne hm] at hrun
        exact hrun
    | made w' h1 h2 _ h3 =>
      obtain ⟨g1, g2⟩ := cellOther .ready (by simp) hrun
      exact fin w' _ h2 (by rw [hstep]; exact .refl _) g1 fun h => absurd h g2
    | burst _ h1 h2 =>
      rw [h2.cells] at hrun
      obtain ⟨g1, g2⟩ := cellOther .poisoned (by simp) hrun
      exact fin { w with frames := rest } _ rfl (by rw [hstep]; exact h2) g1 fun h => absurd h g2
    | died _ h1 h2 h3 =>
      rw [h2.cells] at hrun
      exact fin { w with frames := rest } _ rfl (by rw [hstep]; exact h2) hrun fun _ _ => by rw [hstep]; exact h3
    | onward w' p h1 h2 _ h3 =>
      refine fin w' _ h2 (by rw [hstep]; exact .refl _) hrun fun _ hp => ?_
      rcases h1 with ⟨h1, _⟩ | ⟨h1, _⟩ <;> rw [h1] at hp <;> cases hp
    | over w' _ h1 h2 h3 h4 =>
      rw [h4.cells] at hrun
      refine fin w' _ h2 (by rw [hstep]; exact h4) hrun fun _ hp => ?_
      rcases h1 with ⟨h1, _⟩ | h1 | h1 <;> rw [h1] at hp <;> cases hp
  | fork i d h pid tid w hi ha =>
    rw [hstep] at hrun
    simp only at hrun
    rcases getElem?_snoc hrun with hrun | ⟨hm, hrun⟩
    · have hlt : m < c.cells.length := (List.getElem?_eq_some_iff.1 hrun).1
      rw [← hstep]
      refine live_keep hl hc hrun ?_ hin' fun j wj hj hjm _ => ?_
      · rw [hstep] at hin'
        obtain ⟨u, hu, hum, hua⟩ := hin'
        simp only [List.mem_append, List.mem_singleton] at hu
        rcases hu with hu | rfl
        · exact ⟨u, hu, hum, hua⟩
        · simp only at hum; omega
      · rw [hstep]
        exact ⟨wj, getElem?_old hj, fun _ => ⟨hjm, rfl⟩⟩
    · have hmem := hs.mem w (List.mem_of_getElem? hi)
      have hr : c.cells[w.mem]? = some .running := by
        rw [List.getElem?_eq_getElem hmem] at hrun ⊢
        simp only [Option.getD_some] at hrun
        rw [← hrun]
      obtain ⟨j, wj, g1, g2, g3⟩ := hl w.mem hr ⟨w, List.mem_of_getElem? hi, rfl, ha⟩
      by_cases hne : i = j
      · subst hne
        rw [hi] at g1
        cases g1
        obtain ⟨_, f, hf, hp⟩ := g3
        refine ⟨c.workers.length, _, List.getElem?_concat_length, hm.symm, ha, f, hf, hp⟩
      · exact absurd ⟨j, wj, g1, g3, .inr (.inl ⟨i, d, h, pid, tid, w, rfl, hne, hi, g2.symm⟩)⟩ hc
  | clone i d h tid w hi ha =>
    rw [hstep] at hrun
    rw [← hstep]
    refine live_keep hl hc hrun ?_ hin' fun j wj hj hjm _ => ?_
    · rw [hstep] at hin'
      obtain ⟨u, hu, hum, hua⟩ := hin'
      simp only [List.mem_append, List.mem_singleton] at hu
      rcases hu with hu | rfl
      · exact ⟨u, hu, hum, hua⟩
      · exact ⟨w, List.mem_of_getElem? hi, hum, ha⟩
    · rw [hstep]
      exact ⟨wj, getElem?_old hj, fun _ => ⟨hjm, rfl⟩⟩
  | exec i d h w hi ha =>
    rw [hstep] at hrun hin'
    rcases getElem?_snoc hrun with hrun | ⟨_, hrun⟩
    · have hlt : m < c.cells.length := (List.getElem?_eq_some_iff.1 hrun).1
      obtain ⟨u, hu, hum, hua⟩ := hin'
      obtain ⟨k, hk⟩ := List.getElem?_of_mem hu
      rcases exec_get hk with ⟨_, rfl⟩ | ⟨_, u0, h1, h2, h3, _, h4, h5⟩
      · simp only at hum; omega
      · by_cases hmm : u0.mem = w.mem
        · rw [h4 hmm] at hua; cases hua
        · rw [h5 hmm] at hum hua
          obtain ⟨j, wj, g1, g2, g3⟩ := hl m hrun ⟨u0, List.mem_of_getElem? h1, hum, hua⟩
          refine ⟨j, wj, getElem?_old ?_, g2, g3⟩
          rw [List.getElem?_map, g1]
          simp only [Option.map_some]
          rw [if_neg (by rw [g2, ← hum]; exact hmm)]
    · cases hrun

theorem live_run {c : Crew} (hs : Sane c) (hl : Live c) (ms : List Turn) (hu : Uncut c ms) : Live (c.run ms) := by
  induction ms generalizing c with
  | nil => exact hl
  | cons m ms ih => exact ih (sane_step hs m) (live_step hs hl hu.1) hu.2

theorem live_unused {c : Crew} (h : Unused c) : Live c := by
  intro m hm
  exact absurd (h.2 _ (List.mem_of_getElem? hm)) (by simp)

/-! ## Progress -/

/-- Thread `i` is dead, or its calls in progress are `rest`. -/
def Over (c : Crew) (i : Nat) (rest : List Frame) : Prop :=
  ∃ u, c.workers[i]? = some u ∧ (u.thread.alive = false ∨ u.frames = rest)

/-- Thread `i` lives and its innermost call is at `p`, on top of `rest`; it uses memory `m`. -/
def Stands (c : Crew) (i m : Nat) (p : Place) (rest : List Frame) : Prop :=
  ∃ w f, c.workers[i]? = some w ∧ w.thread.alive = true ∧ w.mem = m ∧ w.frames = f :: rest ∧ f.place = p

theorem step_go {c : Crew} {i : Nat} {w : Worker} {f : Frame} {rest : List Frame} (hs : Sane c) (hi : c.workers[i]? = some w)
    (ha : w.thread.alive = true) (hf : w.frames = f :: rest) : GoShape c i w f rest (c.step (.go i)) := by
  have : c.step (.go i) = c.advance i w f := by simp [Crew.step, hi, hf, ha]
  rw [this]
  exact go_shape hs hi hf

theorem over_dim {c c' : Crew} {i : Nat} {w : Worker} {cells : List Cell} {rest : List Frame} (hlt : i < c.workers.length)
    (hd : Dim ⟨c.workers.set i w, cells⟩ c') (hf : w.frames = rest) : Over c' i rest := by
  obtain ⟨w', g1, _, g3, _⟩ := hd.forth (k := i) (w := w) (List.getElem?_set_self hlt)
  exact ⟨w', g1, .inr (by rw [g3, hf])⟩

theorem at_rest {c : Crew} (hs : Sane c) {i m : Nat} {rest : List Frame} (h : Stands c i m .rest rest) :
    Over (c.run [.go i]) i rest := by
  obtain ⟨w, f, hi, ha, _, hf, hp⟩ := h
  have hlt := (List.getElem?_eq_some_iff.1 hi).1
  have hg := step_go hs hi ha hf
  show Over (c.step (.go i)) i rest
  generalize c.step (.go i) = c' at hg
  cases hg with
  | wait h => rw [h] at hp; cases hp
  | start h => rw [h] at hp; cases hp
  | made _ h => rw [h] at hp; cases hp
  | burst _ h => rw [h] at hp; cases hp
  | died _ h => rw [h] at hp; cases hp
  | onward _ _ h => rcases h with ⟨h, _⟩ | ⟨h, _⟩ <;> rw [h] at hp <;> cases hp
  | over w' _ h1 h2 h3 h4 => exact over_dim hlt h4 h3

theorem run_cons (c : Crew) (t : Turn) (ts : List Turn) : c.run (t :: ts) = (c.step t).run ts := rfl

/-- A list of at most `n` turns, each of thread `i` or `j`, after which the innermost call is over. -/
def Ends (c : Crew) (i : Nat) (rest : List Frame) (n : Nat) : Prop :=
  ∃ ts : List Turn, ts.length ≤ n ∧ (∀ t ∈ ts, ∃ k, t = .go k) ∧ Over (c.run ts) i rest

theorem Ends.now {c : Crew} {i : Nat} {rest : List Frame} {n : Nat} (h : Over c i rest) : Ends c i rest n :=
  ⟨[], Nat.zero_le _, fun _ h => (by cases h), h⟩

theorem Ends.after {c : Crew} {i k : Nat} {rest : List Frame} {n : Nat} (h : Ends (c.step (.go k)) i rest n) : Ends c i rest (n + 1) := by
  obtain ⟨ts, h1, h2, h3⟩ := h
  refine ⟨.go k :: ts, by simpa using h1, fun t ht => ?_, h3⟩
  cases ht with
  | head => exact ⟨k, rfl⟩
  | tail _ ht => exact h2 t ht

theorem Ends.mono {c : Crew} {i : Nat} {rest : List Frame} {n k : Nat} (h : Ends c i rest n) (hk : n ≤ k) : Ends c i rest k := by
  obtain ⟨ts, h1, h2⟩ := h
  exact ⟨ts, Nat.le_trans h1 hk, h2⟩

theorem at_seed {c : Crew} (hs : Sane c) {i m : Nat} {rest : List Frame} (h : Stands c i m .seed rest) : Ends c i rest 2 := by
  obtain ⟨w, f, hi, ha, hm, hf, hp⟩ := h
  have hlt := (List.getElem?_eq_some_iff.1 hi).1
  have hg := step_go hs hi ha hf
  have hs' := sane_step hs (.go i)
  apply Ends.after (k := i)
  generalize c.step (.go i) = c' at hg hs'
  cases hg with
  | wait h => rw [h] at hp; cases hp
  | start h => rw [h] at hp; cases hp
  | made _ h => rw [h] at hp; cases hp
  | burst _ h => rw [h] at hp; cases hp
  | died _ h => rw [h] at hp; cases hp
  | onward w' p h h2 h3 h4 =>
    rcases h with ⟨h, _⟩ | ⟨_, rfl⟩
    · rw [h] at hp; cases hp
    · exact ⟨[.go i], by simp, fun t ht => ⟨i, by simpa using ht⟩,
        at_rest hs' (m := m) ⟨w', _, List.getElem?_set_self hlt, by rw [h3, ha], by rw [h2, hm], h4, rfl⟩⟩
  | over w' _ h1 h2 h3 h4 => exact .now (over_dim hlt h4 h3)

theorem at_init {c : Crew} (hs : Sane c) {i m : Nat} {rest : List Frame} (h : Stands c i m .init rest) : Ends c i rest 3 := by
  obtain ⟨w, f, hi, ha, hm, hf, hp⟩ := h
  have hlt := (List.getElem?_eq_some_iff.1 hi).1
  have hg := step_go hs hi ha hf
  have hs' := sane_step hs (.go i)
  apply Ends.after (k := i)
  generalize c.step (.go i) = c' at hg hs'
  cases hg with
  | wait h => rw [h] at hp; cases hp
  | start h => rw [h] at hp; cases hp
  | made w' h h2 h3 h4 =>
    exact at_seed hs' (m := m) ⟨w', _, List.getElem?_set_self hlt, by rw [h3, ha], by rw [h2, hm], h4, rfl⟩
  | burst _ h h2 => exact .now (over_dim hlt h2 rfl)
  | died _ h h2 h3 => exact .now (over_dim hlt h2 rfl)
  | onward w' p h h2 h3 h4 => rcases h with ⟨h, _⟩ | ⟨h, _⟩ <;> rw [h] at hp <;> cases hp
  | over w' _ h1 h2 h3 h4 => exact .now (over_dim hlt h4 h3)

/-- A call that looks up the table when it is not being made. -/
theorem at_table {c : Crew} (hs : Sane c) {i m : Nat} {rest : List Frame} (h : Stands c i m .table rest)
    (hc : c.cells[m]? ≠ some .running) : Ends c i rest (if c.cells[m]? = some .idle then 4 else 3) := by
  obtain ⟨w, f, hi, ha, hm, hf, hp⟩ := h
  have hlt := (List.getElem?_eq_some_iff.1 hi).1
  have hg := step_go hs hi ha hf
  have hs' := sane_step hs (.go i)
  generalize hst : c.step (.go i) = c' at hg hs'
  cases hg with
  | wait _ h => rw [hm] at h; exact absurd h hc
  | start h hx =>
    rw [hm] at hx
    rw [if_pos hx]
    refine Ends.after (k := i) ?_
    rw [hst]
    exact at_init hs' (m := m) ⟨_, _, List.getElem?_set_self hlt, ha, hm, rfl, rfl⟩
  | made _ h => rw [h] at hp; cases hp
  | burst _ h => rw [h] at hp; cases hp
  | died _ h => rw [h] at hp; cases hp
  | onward w' p h h2 h3 h4 =>
    rcases h with ⟨_, rfl, hx⟩ | ⟨h, _⟩
    · rw [hm] at hx
      rw [if_neg (by rw [hx]; simp)]
      refine Ends.after (k := i) ?_
      rw [hst]
      exact at_seed hs' (m := m) ⟨w', _, List.getElem?_set_self hlt, by rw [h3, ha], by rw [h2, hm], h4, rfl⟩
    · rw [h] at hp; cases hp
  | over w' _ h1 h2 h3 h4 =>
    refine Ends.mono (n := 1) ?_ (by split <;> decide)
    refine Ends.after (k := i) ?_
    rw [hst]
    exact .now (over_dim hlt h4 h3)

theorem progress {c : Crew} (hs : Sane c) (hl : Live c) (hc : ∀ k, ¬ Cut c (.go k)) {i : Nat} {w : Worker} {f : Frame} {rest : List Frame}
    (hi : c.workers[i]? = some w) (ha : w.thread.alive = true) (hf : w.frames = f :: rest) : Ends c i rest 4 := by
  cases hp : f.place with
  | rest => exact (⟨[.go i], by simp, fun t ht => ⟨i, by simpa using ht⟩, at_rest hs (m := w.mem) ⟨w, f, hi, ha, rfl, hf, hp⟩⟩)
  | seed => exact (at_seed hs (m := w.mem) ⟨w, f, hi, ha, rfl, hf, hp⟩).mono (by decide)
  | init => exact (at_init hs (m := w.mem) ⟨w, f, hi, ha, rfl, hf, hp⟩).mono (by decide)
  | table =>
    by_cases hx : c.cells[w.mem]? = some .running
    · obtain ⟨j, v, hj, hvm, hva, g, hg, hgp⟩ := hl w.mem hx ⟨w, List.mem_of_getElem? hi, rfl, ha⟩
      have hji : j ≠ i := by
        rintro rfl
        rw [hi] at hj
        cases hj
        rw [hf] at hg
        cases hg
        rw [hp] at hgp
        cases hgp
      obtain ⟨gr, hfr⟩ : ∃ gr, v.frames = g :: gr := by
        cases hv : v.frames with
        | nil => rw [hv] at hg; cases hg
        | cons a as => rw [hv] at hg; cases hg; exact ⟨as, rfl⟩
      have hlt := (List.getElem?_eq_some_iff.1 hj).1
      have hmem := hs.mem v (List.mem_of_getElem? hj)
      have hgo := step_go hs hj hva hfr
      have hs' := sane_step hs (.go j)
      have hcut := hc j
      apply Ends.after (k := j)
      have same : ∀ (v' : Worker) (cells : List Cell) (x : Cell), Dim ⟨c.workers.set j v', cells⟩ (c.step (.go j)) →
          cells = c.cells.set v.mem x → x = .ready ∨ x = .poisoned → Ends (c.step (.go j)) i rest 3 := by
        rintro v' _ x hd rfl hx2
        obtain ⟨w', g1, g2, g3, _⟩ := hd.forth (k := i) (w := w) (by simp only; rw [List.getElem?_set_ne hji]; exact hi)
        have hcell : (c.step (.go j)).cells[w.mem]? = some x := by
          rw [hd.cells, ← hvm]
          exact List.getElem?_set_self hmem
        cases hw : w'.thread.alive with
        | false => exact .now ⟨w', g1, .inl hw⟩
        | true =>
          have := at_table hs' (m := w.mem) (rest := rest) ⟨w', f, g1, hw, g2, by rw [g3, hf], hp⟩
            (by rw [hcell]; rcases hx2 with rfl | rfl <;> simp)
          rwa [if_neg (by rw [hcell]; rcases hx2 with rfl | rfl <;> simp)] at this
      generalize hst : c.step (.go j) = c' at hgo hs'
      cases hgo with
      | wait h => rw [h] at hgp; cases hgp
      | start h => rw [h] at hgp; cases hgp
      | made v' h h2 h3 h4 => rw [← hst]; exact same v' _ .ready (by rw [hst]; exact .refl _) rfl (.inl rfl)
      | burst _ h h2 => rw [← hst]; exact same { v with frames := gr } _ .poisoned (by rw [hst]; exact h2) rfl (.inr rfl)
      | died _ h h2 h3 =>
        obtain ⟨w', g1, g2, _⟩ := h2.forth (k := i) (w := w) (by simp only; rw [List.getElem?_set_ne hji]; exact hi)
        refine .now ⟨w', g1, .inl ?_⟩
        cases hw : w'.thread.alive with
        | false => rfl
        | true =>
          refine absurd ⟨j, v, hj, ⟨hva, g, hg, hgp⟩, .inr (.inr ⟨?_, w', ?_, by rw [g2, hvm], hw⟩)⟩ hcut
          · rw [hst]; exact h3
          · rw [hst]; exact List.mem_of_getElem? g1
      | onward w' p h h2 h3 h4 => rcases h with ⟨h, _⟩ | ⟨h, _⟩ <;> rw [h] at hgp <;> cases hgp
      | over w' _ h1 h2 h3 h4 => rcases h1 with ⟨h, _⟩ | h | h <;> rw [h] at hgp <;> cases hgp
    · exact (at_table hs (m := w.mem) ⟨w, f, hi, ha, rfl, hf, hp⟩ hx).mono (by split <;> decide)

end Spec
