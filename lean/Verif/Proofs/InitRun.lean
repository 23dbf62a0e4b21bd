import Verif.Proofs.Init
import Verif.Proofs.Sched
import Verif.Props.Reduce

/-!
# Runs with one-time initialisation are histories
-/
set_option autoImplicit false

namespace Spec
open Pledge Bpfvm Kernel

theorem threads_get (c : Crew) (i : Nat) : c.threads[i]? = (c.workers[i]?).map Worker.thread := by
  unfold Crew.threads; rw [List.getElem?_map]

theorem threads_withThreads (c : Crew) (s : System) (hl : s.length = c.workers.length) : (c.withThreads s).threads = s := by
  apply List.ext_getElem?
  intro k
  rw [threads_get]
  unfold Crew.withThreads
  rw [List.getElem?_zipWith]
  by_cases hk : k < s.length
  · rw [List.getElem?_eq_getElem hk, List.getElem?_eq_getElem (by omega)]
    rfl
  · rw [List.getElem?_eq_none (l := s) (by omega), List.getElem?_eq_none (l := c.workers) (by omega)]
    rfl

theorem threads_set (ws : List Worker) (cells : List Cell) (i : Nat) (w : Worker) :
    (⟨ws.set i w, cells⟩ : Crew).threads = (ws.map Worker.thread).set i w.thread := by
  unfold Crew.threads; rw [List.map_set]

theorem set_same {α : Type _} {l : List α} {i : Nat} {x : α} (h : l[i]? = some x) : l.set i x = l := by
  apply List.ext_getElem?
  intro k
  rw [List.getElem?_set]
  split
  · rename_i hk
    subst hk
    have := (List.getElem?_eq_some_iff.1 h).1
    first | rw [if_pos this, h] | rw [h]
  · rfl

/-- A call that ends. -/
theorem threads_ends (c : Crew) (i : Nat) (w : Worker) (r : PledgeRes) :
    (c.ends i w r).threads =
      match r.death with
      | some o => reap (c.threads.set i w.thread) i w.thread.pid o
      | none => c.threads.set i w.thread := by
  unfold Crew.ends
  simp only
  cases r.death with
  | none => simp only; rw [threads_set]; rfl
  | some o =>
    simp only
    rw [threads_withThreads _ _ (by rw [reap_length]; simp [Crew.threads]), threads_set]
    rfl

theorem reap_whole (s : System) (i : Nat) (pid : BitVec 32) (o : Outcome) (h : o ≠ .killThread) :
    reap s i pid o = reap s i pid .killProcess := by
  cases o <;> first | rfl | exact absurd rfl h

/-- A death is a crash. -/
theorem crash_reap {s : System} {i : Nat} {t : Thread} (hi : s[i]? = some t) (ha : t.alive = true) (o : Outcome) :
    ∃ whole, s.run [.crash i whole] = reap s i t.pid o := by
  by_cases h : o = .killThread
  · refine ⟨false, ?_⟩
    subst h
    simp [System.run, System.step, System.on, hi, ha, set_same hi]
  · refine ⟨true, ?_⟩
    rw [reap_whole _ _ _ _ h]
    simp [System.run, System.step, System.on, hi, ha, set_same hi]

/-- Each of these threads ends. -/
theorem crash_many (ks : List Nat) (s : System) (k : Nat) :
    (s.run (ks.map fun k => .crash k false))[k]? =
      (s[k]?).map fun t => if k ∈ ks then { t with alive := false } else t := by
  induction ks generalizing s with
  | nil => cases h : s[k]? <;> simp [System.run, h]
  | cons a ks ih =>
    have hstep : (s.step (.crash a false))[k]? = (s[k]?).map fun t => if k = a then { t with alive := false } else t := by
      unfold System.step System.on
      simp only
      cases ha : s[a]? with
      | none =>
        simp only
        by_cases hk : k = a
        · subst hk; rw [ha]; rfl
        · cases s[k]? <;> simp [hk]
      | some t =>
        simp only
        by_cases hal : t.alive = true
        · rw [if_pos hal]
          simp only [Bool.false_eq_true, if_false]
          rw [set_same ha, reap_getElem?]
          congr 1
          funext u
          simp [reaped, dies]
        · rw [if_neg hal]
          by_cases hk : k = a
          · subst hk
            rw [ha]
            simp only [Option.map_some, if_true]
            have hal : t.alive = false := by simpa using hal
            cases t
            simp only at hal
            subst hal
            rfl
          · cases s[k]? <;> simp [hk]
    show ((s.step (.crash a false)).run _)[k]? = _
    rw [ih, hstep]
    cases s[k]? with
    | none => rfl
    | some t =>
      simp only [Option.map_some, List.mem_cons]
      by_cases h1 : k = a <;> by_cases h2 : k ∈ ks <;> simp [h1, h2]

/-- The calls in progress in thread `k` are among `P k`. -/
def Entered (P : Nat → Call → Prop) (c : Crew) : Prop := ∀ k w, c.workers[k]? = some w → ∀ f ∈ w.frames, P k f.call

theorem Entered.dim {P : Nat → Call → Prop} {c c' : Crew} (h : Entered P c) (hd : Dim c c') : Entered P c' := by
  intro k w hk f hf
  obtain ⟨v, h1, _, h3, _⟩ := hd.back k w hk
  exact h k v h1 f (by rw [← h3]; exact hf)

theorem Entered.set {P : Nat → Call → Prop} {c : Crew} (h : Entered P c) (i : Nat) (w : Worker) (cells : List Cell)
    (hw : ∀ f ∈ w.frames, P i f.call) : Entered P ⟨c.workers.set i w, cells⟩ := by
  intro k u hu f hf
  simp only [List.getElem?_set] at hu
  split at hu
  · rename_i hk
    subst hk
    split at hu
    · cases hu; exact hw f hf
    · cases hu
  · exact h k u hu f hf

theorem entered_step {P P' : Nat → Call → Prop} {c : Crew} (hs : Sane c) (t : Turn) (h0 : Entered P c)
    (hPP : ∀ k call, P k call → P' k call) (ht : ∀ i call, t = .enter i call → P' i call)
    (hfork : ∀ i d h pid tid call, t = .fork i d h pid tid → c.workers.length < (c.step t).workers.length →
      P i call → P' c.workers.length call) : Entered P' (c.step t) := by
  have h : Entered P' c := fun k w hk f hf => hPP _ _ (h0 k w hk f hf)
  have hsh := step_shape hs t
  generalize c.step t = c' at hsh hfork
  cases hsh with
  | dim _ _ hd => exact h.dim hd
  | skip => exact h
  | enter i call w hi ha =>
    refine h.set i _ _ fun f hf => ?_
    cases hf with
    | head => exact ht i call rfl
    | tail _ hf => exact h i w hi f hf
  | go i w f rest _ hi ha hf hg =>
    have hold := h i w hi
    have hfc : P' i f.call := hold f (by rw [hf]; simp)
    have hrest : ∀ g ∈ rest, P' i g.call := fun g hg => hold g (by rw [hf]; simp [hg])
    have hnew : ∀ p, ∀ g ∈ ({ f with place := p } :: rest : List Frame), P' i g.call := by
      intro p g hg
      cases hg with
      | head => exact hfc
      | tail _ hg => exact hrest g hg
    cases hg with
    | wait => exact h
    | start => exact h.set _ _ _ (hnew _)
    | made w' _ _ _ h4 => exact h.set _ _ _ (by rw [h4]; exact hnew _)
    | burst _ _ h2 => exact (h.set i { w with frames := rest } _ hrest).dim h2
    | died _ _ h2 => exact (h.set i { w with frames := rest } _ hrest).dim h2
    | onward w' p _ _ _ h4 => exact h.set _ _ _ (by rw [h4]; exact hnew _)
    | over w' _ _ _ h3 h4 => exact (h.set i w' _ (by rw [h3]; exact hrest)).dim h4
  | fork i d h' pid tid w hi ha =>
    intro k u hu f hf
    by_cases hk : k < c.workers.length
    · rw [List.getElem?_append_left hk] at hu
      exact h k u hu f hf
    · rw [List.getElem?_append_right (by omega), List.getElem?_singleton] at hu
      split at hu
      · cases hu
        have : k = c.workers.length := by omega
        subst this
        exact hfork i d h' pid tid f.call rfl (by simp) (h0 i w hi f hf)
      · cases hu
  | clone i d h' tid w hi ha =>
    intro k u hu f hf
    by_cases hk : k < c.workers.length
    · rw [List.getElem?_append_left hk] at hu
      exact h k u hu f hf
    · rw [List.getElem?_append_right (by omega), List.getElem?_singleton] at hu
      split at hu
      · cases hu
        cases hf
      · cases hu
  | exec i d h' w hi ha =>
    intro k u hk f hf
    rcases exec_get hk with ⟨_, rfl⟩ | ⟨_, u0, h1, _, h3, _⟩
    · cases hf
    · exact h k u0 h1 f (by rw [← h3]; exact hf)

/-- One turn as operations of a history. -/
theorem turn_ops {P : Nat → Call → Prop} {c : Crew} (t : Turn) (h : Entered P c) (T : Turn → Prop) (hT : T t) :
    ∃ ops, (c.step t).threads = c.threads.run ops ∧ ∀ op ∈ ops, match op with
      | .pledge i b env ps v => ∃ seed, P i ⟨b, env, seed, ps, v⟩
      | .spawn i d h pid tid => T (.fork i d h pid tid) ∨ T (.clone i d h tid) ∨ T (.exec i d h) ∧ tid = pid
      | .call _ _ _ => True
      | .crash _ _ => True
      | op => T (.other op) := by
  have nothing : (c.step t).threads = c.threads → ∃ ops, (c.step t).threads = c.threads.run ops ∧ ∀ op ∈ ops, match op with
      | .pledge i b env ps v => ∃ seed, P i ⟨b, env, seed, ps, v⟩
      | .spawn i d h pid tid => T (.fork i d h pid tid) ∨ T (.clone i d h tid) ∨ T (.exec i d h) ∧ tid = pid
      | .call _ _ _ => True
      | .crash _ _ => True
      | op => T (.other op) := fun h => ⟨[], h, fun _ h => (by cases h)⟩
  have len : ∀ i f, (c.threads.on i f).length = c.workers.length := by
    intro i f; rw [on_length]; simp [Crew.threads]
  have noEffect : ∀ i d h', (c.withThreads (c.threads.step (.call i d h'))).threads = c.threads.run [.call i d h'] := by
    intro i d h'
    rw [threads_withThreads]
    · rfl
    · exact len _ _
  cases t with
  | enter i call =>
    apply nothing
    simp only [Crew.step]
    split
    · rename_i w hi
      split
      · rw [threads_set]
        exact set_same (by simp [hi])
      · rfl
    · rfl
  | go i =>
    cases hi : c.workers[i]? with
    | none => exact nothing (by simp [Crew.step, hi])
    | some w =>
      cases hf : w.frames with
      | nil => exact nothing (by simp [Crew.step, hi, hf])
      | cons f rest =>
        cases ha : w.thread.alive with
        | false => exact nothing (by simp [Crew.step, hi, hf, ha])
        | true =>
          have hst : c.step (.go i) = c.advance i w f := by simp [Crew.step, hi, hf, ha]
          have hti : c.threads[i]? = some w.thread := by rw [threads_get, hi]; rfl
          rw [hst] at nothing ⊢
          have keep : ∀ (w' : Worker) cells, w'.thread = w.thread → (⟨c.workers.set i w', cells⟩ : Crew).threads = c.threads := by
            intro w' cells hw
            rw [threads_set, hw]
            exact set_same hti
          have ended : ∀ (c1 : Crew) (r : PledgeRes), c1.threads = c.threads → ∃ ops, (c1.ends i w r).threads = c.threads.run ops ∧ ∀ op ∈ ops,
              match op with
              | .pledge i b env ps v => ∃ seed, P i ⟨b, env, seed, ps, v⟩
              | .spawn i d h pid tid => T (.fork i d h pid tid) ∨ T (.clone i d h tid) ∨ T (.exec i d h) ∧ tid = pid
              | .call _ _ _ => True
              | .crash _ _ => True
              | op => T (.other op) := by
            intro c1 r hc1
            rw [threads_ends, hc1, set_same hti]
            cases r.death with
            | none => exact ⟨[], rfl, fun _ h => (by cases h)⟩
            | some o =>
              obtain ⟨whole, hw⟩ := crash_reap hti ha o
              refine ⟨[.crash i whole], hw.symm, fun op hop => ?_⟩
              cases List.mem_singleton.1 hop
              trivial
          unfold Crew.advance at nothing ⊢
          cases hp : f.place with
          | table =>
            simp only [hp] at nothing ⊢
            cases hc : c.cells[w.mem]? with
            | none => simp only [hc] at nothing ⊢; exact nothing trivial
            | some x =>
              cases x with
              | idle => simp only [hc] at nothing ⊢; exact nothing (keep _ _ rfl)
              | running => simp only [hc] at nothing ⊢; exact nothing trivial
              | ready => simp only [hc] at nothing ⊢; exact nothing (keep _ _ rfl)
              | poisoned => simp only [hc] at nothing ⊢; exact ended c _ rfl
          | init =>
            simp only [hp] at nothing ⊢
            cases hk : w.keys with
            | true => simp only [hk, if_true] at nothing ⊢; exact nothing (keep _ _ rfl)
            | false =>
              simp only [hk, Bool.false_eq_true, if_false] at nothing ⊢
              cases hq : askKeys f.call.env.handler w.thread f.call.seed with
              | ok u => simp only [hq] at nothing ⊢; exact nothing (keep _ _ rfl)
              | error r =>
                cases r with
                | panic => simp only [hq] at nothing ⊢; exact ended _ _ rfl
                | ok => simp only [hq] at nothing ⊢; exact ended _ _ rfl
                | err e => simp only [hq] at nothing ⊢; exact ended _ _ rfl
                | died o => simp only [hq] at nothing ⊢; exact ended _ _ rfl
          | seed =>
            simp only [hp] at nothing ⊢
            cases hk : w.keys with
            | true => simp only [hk, if_true] at nothing ⊢; exact nothing (keep _ _ rfl)
            | false =>
              simp only [hk, Bool.false_eq_true, if_false] at nothing ⊢
              cases hq : askKeys f.call.env.handler w.thread f.call.seed with
              | ok u => simp only [hq] at nothing ⊢; exact nothing (keep _ _ rfl)
              | error r => simp only [hq] at nothing ⊢; exact ended _ _ rfl
          | rest =>
            simp only [hp] at nothing ⊢
            refine ⟨[.pledge i f.call.b f.call.env f.call.ps f.call.v], ?_, fun op hop => ?_⟩
            · rw [threads_ends]
              simp only [(Props.pledge_ids _ _ _ _ _).1]
              simp only [System.run, List.foldl, System.step, System.on, hti, ha, if_true]
              cases (pledgeOverride f.call.b f.call.env w.thread f.call.ps f.call.v).2.death <;> rfl
            · cases List.mem_singleton.1 hop
              exact ⟨f.call.seed, h i w hi f (by rw [hf]; simp)⟩
  | fork i d h' pid tid =>
    cases hi : c.workers[i]? with
    | none => exact nothing (by simp [Crew.step, hi])
    | some w =>
      have hti : c.threads[i]? = some w.thread := by rw [threads_get, hi]; rfl
      by_cases hx : w.thread.alive = true ∧ Kernel.enter w.thread d = .executed
      · refine ⟨[.spawn i d h' pid tid], ?_, fun op hop => ?_⟩
        · simp only [Crew.step, hi, if_pos hx, System.run, List.foldl, System.step, hti]
          simp [Crew.threads]
        · cases List.mem_singleton.1 hop
          exact .inl hT
      · refine ⟨[.call i d h'], ?_, fun op hop => ?_⟩
        · simp only [Crew.step, hi, if_neg hx]
          exact noEffect _ _ _
        · cases List.mem_singleton.1 hop
          trivial
  | clone i d h' tid =>
    cases hi : c.workers[i]? with
    | none => exact nothing (by simp [Crew.step, hi])
    | some w =>
      have hti : c.threads[i]? = some w.thread := by rw [threads_get, hi]; rfl
      by_cases hx : w.thread.alive = true ∧ Kernel.enter w.thread d = .executed
      · refine ⟨[.spawn i d h' w.thread.pid tid], ?_, fun op hop => ?_⟩
        · simp only [Crew.step, hi, if_pos hx, System.run, List.foldl, System.step, hti]
          simp [Crew.threads]
        · cases List.mem_singleton.1 hop
          exact .inr (.inl hT)
      · refine ⟨[.call i d h'], ?_, fun op hop => ?_⟩
        · simp only [Crew.step, hi, if_neg hx]
          exact noEffect _ _ _
        · cases List.mem_singleton.1 hop
          trivial
  | exec i d h' =>
    cases hi : c.workers[i]? with
    | none => exact nothing (by simp [Crew.step, hi])
    | some w =>
      have hti : c.threads[i]? = some w.thread := by rw [threads_get, hi]; rfl
      by_cases hx : w.thread.alive = true ∧ Kernel.enter w.thread d = .executed
      · -- the new thread, then the deaths
        let L := (List.range c.workers.length).filter fun k => (c.workers[k]?).any (·.mem == w.mem)
        refine ⟨.spawn i d h' w.thread.pid w.thread.pid :: L.map fun k => .crash k false, ?_, fun op hop => ?_⟩
        · have hsp : c.threads.step (.spawn i d h' w.thread.pid w.thread.pid) = c.threads ++ [{ w.thread with tid := w.thread.pid }] := by
            simp only [System.step, hti, if_pos hx]
          show _ = (c.threads.step _).run _
          rw [hsp]
          apply List.ext_getElem?
          intro k
          rw [crash_many, threads_get]
          simp only [Crew.step, hi, if_pos hx]
          have hlen : c.threads.length = c.workers.length := by simp [Crew.threads]
          rcases Nat.lt_trichotomy k c.workers.length with hk | hk | hk
          · rw [List.getElem?_append_left (by simpa using hk), List.getElem?_append_left (by rw [hlen]; exact hk), threads_get,
              List.getElem?_map, List.getElem?_eq_getElem hk]
            have hmem : k ∈ L ↔ c.workers[k].mem = w.mem := by
              simp only [L, List.mem_filter, List.mem_range, hk, true_and, List.getElem?_eq_getElem hk, Option.any_some, beq_iff_eq]
            by_cases hm : c.workers[k].mem = w.mem
            · simp only [Option.map_some, if_pos hm, if_pos (hmem.2 hm)]
            · simp only [Option.map_some, if_neg hm, if_neg (fun h => hm (hmem.1 h))]
          · have hmem : k ∉ L := fun h => absurd (List.mem_range.1 (List.mem_filter.1 h).1) (by omega)
            simp only [hmem, if_false]
            subst hk
            have e1 : (c.threads ++ [{ w.thread with tid := w.thread.pid }])[c.workers.length]? = some { w.thread with tid := w.thread.pid } := by
              rw [← hlen]; exact List.getElem?_concat_length
            rw [e1, List.getElem?_append_right (by simp)]
            simp
          · rw [List.getElem?_eq_none (by simp; omega), List.getElem?_eq_none (by simp; omega)]; rfl
        · rcases List.mem_cons.1 hop with rfl | hop
          · exact .inr (.inr ⟨hT, rfl⟩)
          · obtain ⟨k, _, rfl⟩ := List.mem_map.1 hop
            trivial
      · refine ⟨[.call i d h'], ?_, fun op hop => ?_⟩
        · simp only [Crew.step, hi, if_neg hx]
          exact noEffect _ _ _
        · cases List.mem_singleton.1 hop
          trivial
  | other op =>
    cases op with
    | pledge i b env ps v => exact nothing rfl
    | spawn i d h' pid tid => exact nothing rfl
    | call i d h' => exact ⟨[.call i d h'], noEffect _ _ _, fun op hop => by cases List.mem_singleton.1 hop; trivial⟩
    | setNnp i d h' fault =>
      refine ⟨[.setNnp i d h' fault], threads_withThreads c _ (len _ _), fun op hop => ?_⟩
      cases List.mem_singleton.1 hop; exact hT
    | setSeccomp i d h' f p =>
      refine ⟨[.setSeccomp i d h' f p], threads_withThreads c _ (len _ _), fun op hop => ?_⟩
      cases List.mem_singleton.1 hop; exact hT
    | cred i a =>
      refine ⟨[.cred i a], threads_withThreads c _ (len i (fun t => ({ t with admin := a }, none))), fun op hop => ?_⟩
      cases List.mem_singleton.1 hop; exact hT
    | crash i wh =>
      refine ⟨[.crash i wh], threads_withThreads c _ (len i (fun t => (t, some (if wh then .killProcess else .killThread)))), fun op hop => ?_⟩
      cases List.mem_singleton.1 hop; trivial

theorem descend_own (ms : List Turn) : ∀ (c : Crew) (own : List Nat), ∀ k ∈ own, k ∈ descend c ms own := by
  induction ms with
  | nil => exact fun _ _ _ h => h
  | cons m ms ih =>
    intro c own k hk
    cases m <;> simp only [descend] <;> apply ih <;> first | exact hk | (split <;> simp [hk])

theorem descend_append (ms ms' : List Turn) : ∀ (c : Crew) (own : List Nat),
    descend c (ms ++ ms') own = descend (c.run ms) ms' (descend c ms own) := by
  induction ms with
  | nil => exact fun _ _ => rfl
  | cons m ms ih => intro c own; cases m <;> simp only [List.cons_append, descend, ih] <;> rfl

theorem crew_append (c : Crew) (ms ms' : List Turn) : c.run (ms ++ ms') = (c.run ms).run ms' := by
  unfold Crew.run; rw [List.foldl_append]

theorem AtWork.more {c : Crew} {ms : List Turn} {k : Nat} {call : Call} (h : AtWork c ms k call) (ms' : List Turn) :
    AtWork c (ms ++ ms') k call := by
  obtain ⟨j, before, after, rfl, h2⟩ := h
  refine ⟨j, before, after ++ ms', by simp, ?_⟩
  rw [descend_append]
  exact descend_own _ _ _ _ h2

/-- A whole run. -/
theorem run_ops (c : Crew) (hu : Unused c) (ms : List Turn) :
    Entered (AtWork c ms) (c.run ms) ∧ Sane (c.run ms) ∧
    ∃ ops, (c.run ms).threads = c.threads.run ops ∧ ∀ op ∈ ops, Explained c ms op := by
  suffices hgen : ∀ (rest before : List Turn), (Entered (AtWork c before) (c.run before) ∧ Sane (c.run before) ∧
      ∃ ops, (c.run before).threads = c.threads.run ops ∧ ∀ op ∈ ops, Explained c before op) →
      Entered (AtWork c (before ++ rest)) (c.run (before ++ rest)) ∧ Sane (c.run (before ++ rest)) ∧
      ∃ ops, (c.run (before ++ rest)).threads = c.threads.run ops ∧ ∀ op ∈ ops, Explained c (before ++ rest) op by
    refine hgen ms [] ⟨fun k w hk f hf => ?_, sane_unused hu, [], rfl, fun _ h => (by cases h)⟩
    rw [(hu.1 w (List.mem_of_getElem? hk)).1] at hf
    cases hf
  intro rest
  induction rest with
  | nil => intro before h; rw [List.append_nil]; exact h
  | cons t rest ih =>
    rintro before ⟨h1, h2, ops, h3, h4⟩
    have := ih (before ++ [t]) ?_
    · rwa [List.append_assoc, List.singleton_append] at this
    have hrun : c.run (before ++ [t]) = (c.run before).step t := crew_append c before [t]
    refine ⟨?_, ?_, ?_⟩
    · rw [hrun]
      refine entered_step h2 t h1 (fun k call h => h.more [t]) ?_ ?_
      · rintro i call rfl
        exact ⟨i, before, [], rfl, by simp [descend]⟩
      · rintro i d h pid tid call rfl hlen ⟨j, b1, a1, hb, ha⟩
        refine ⟨j, b1, a1 ++ [.fork i d h pid tid], by rw [hb]; simp, ?_⟩
        have hr : c.run before = (c.run (b1 ++ [.enter j call])).run a1 := by
          rw [hb, ← crew_append]; simp
        rw [descend_append, ← hr]
        simp only [descend]
        rw [if_pos ⟨ha, hlen⟩]
        simp
    · rw [hrun]; exact sane_step h2 t
    · obtain ⟨ops1, h5, h6⟩ := turn_ops t h1 (fun m => m ∈ before ++ [t]) (by simp)
      refine ⟨ops ++ ops1, ?_, fun op hop => ?_⟩
      · rw [hrun, h5, h3]
        unfold System.run
        rw [List.foldl_append]
      · rcases List.mem_append.1 hop with h | h
        · have := h4 op h
          cases op with
          | pledge i b env ps v => obtain ⟨seed, h⟩ := this; exact ⟨seed, h.more [t]⟩
          | spawn i d h pid tid =>
            rcases this with h | h | ⟨h, h'⟩
            · exact .inl (List.mem_append_left _ h)
            · exact .inr (.inl (List.mem_append_left _ h))
            · exact .inr (.inr ⟨List.mem_append_left _ h, h'⟩)
          | call i d h => trivial
          | crash i w => trivial
          | setNnp i d h f => exact List.mem_append_left _ this
          | setSeccomp i d h f p => exact List.mem_append_left _ this
          | cred i a => exact List.mem_append_left _ this
        · have := h6 op h
          cases op with
          | pledge i b env ps v => obtain ⟨seed, h⟩ := this; exact ⟨seed, h.more [t]⟩
          | spawn i d h pid tid => exact this
          | call i d h => trivial
          | crash i w => trivial
          | setNnp i d h f => exact this
          | setSeccomp i d h f p => exact this
          | cred i a => exact this

end Spec
