import Verif.Spec.Alone
import Verif.Proofs.Account
import Verif.Spec.Returns

/-!
# A call of `pledge_override` that nobody interrupts
-/
set_option autoImplicit false

namespace Spec
open Pledge Bpfvm Kernel Props

/-- The world when the call of thread `i` is over. -/
def finish (c : World) (i : Nat) (w : Hand) (t : Thread) (r : PledgeRes) : World :=
  match r.death with
  | some o => World.lose (World.put c i { w with thread := t }) i w.thread.pid o
  | none => World.put c i { w with thread := t }

/-- `n` steps of thread `i`. -/
def gos (i n : Nat) : List Happening := List.replicate n (.go i)

theorem run_gos_succ (c : World) (i n : Nat) : c.run (gos i (n + 1)) = (c.step (.go i)).run (gos i n) := by
  unfold gos; rw [List.replicate_succ]; rfl

theorem results_gos_succ (c : World) (i n : Nat) :
    resultsIn c (gos i (n + 1)) = (nextResult c i).toList.map (i, ·) ++ resultsIn (c.step (.go i)) (gos i n) := by
  unfold gos; rw [List.replicate_succ]; rfl

/-- `n` steps of thread `i`, which end its innermost call with the result `r`. -/
def Yields (c : World) (i n : Nat) (r : PledgeRes) : Prop := resultsIn c (gos i n) = [(i, r)]

theorem Yields.now {c : World} {i : Nat} {r : PledgeRes} (h : nextResult c i = some r) : Yields c i 1 r := by
  unfold Yields; rw [results_gos_succ, h]; rfl

theorem Yields.later {c : World} {i n : Nat} {r : PledgeRes} (h : nextResult c i = none) (h' : Yields (c.step (.go i)) i n r) : Yields c i (n + 1) r := by
  unfold Yields at *; rw [results_gos_succ, h, h']; rfl

theorem next_result {c : World} {i : Nat} {w : Hand} {t : Thread} {seed : Seed} {a : Act} (h : c.hands[i]? = some w) (hk : w.keys = true)
    (ha : t.alive = true) :
    nextResult (World.put c i (inCall w t seed a)) i = match (a.next t).2 with | .inr r => some r | .inl _ => none := by
  unfold nextResult
  rw [put_get h]
  simp [inCall, hk, ha]
  rfl

theorem next_step {c : World} {i : Nat} {w : Hand} {t : Thread} {seed : Seed} {a : Act} (h : c.hands[i]? = some w) (hk : w.keys = true)
    (ha : t.alive = true) (hp : t.pid = w.thread.pid) :
    (World.put c i (inCall w t seed a)).step (.go i) =
      match a.next t with
      | (t', .inl a') => World.put c i (inCall w t' seed a')
      | (t', .inr r) => finish c i w t' r := by
  cases hn : a.next t with
  | mk t' x =>
    cases x with
    | inl a' => exact go_inl h hk ha hn
    | inr r =>
      rw [go_inr h hk ha hn]
      have hp' : t'.pid = w.thread.pid := by
        have := next_pid a t
        rw [hn] at this
        exact this.trans hp
      simp only [finish, hp']
      cases r.death <;> rfl

/-- The end of a call, after all fragments are made. -/
def lastSteps (b : Build) (env : Env) (v : SeccompReturn) (t : Thread) (codes : List (List SockFilter)) : Thread × PledgeRes :=
  match bpfHeader b with
  | .err e => (t, .err e)
  | .panic => (t, .panic)
  | .ok header =>
  match bpfFooter b v with
  | .err e => (t, .err e)
  | .panic => (t, .panic)
  | .ok footer =>
    let prog := ([header] ++ codes ++ [footer]).flatten
    let seen := prog.take (prog.length % 2 ^ 16)
    let r1 := syscall (env.onTrap env.trapRet.1) t (recNnp env) (setNnp env.nnpFault)
    match checkRet env.errno.1 r1.2 with
    | some e => (r1.1, e)
    | none =>
      let r2 := syscall (env.onTrap env.trapRet.2) r1.1 (recSeccomp env) (setSeccomp env.seccompFault seen)
      match checkRet env.errno.2 r2.2 with
      | some e => (r2.1, e)
      | none => (r2.1, .ok)

/-- A call from the fragments on. -/
def restOf (b : Build) (env : Env) (q : Nat → Query) (v : SeccompReturn) (t : Thread) (k : Nat) (fs : List Filtered)
    (codes : List (List SockFilter)) : Thread × PledgeRes :=
  match (fragsBy b env.handler t q k fs).2 with
  | .error o => (t, .died o)
  | .ok (.err e) => (t, .err e)
  | .ok .panic => (t, .panic)
  | .ok (.ok l) => lastSteps b env v t (codes ++ l)

theorem calls_rest (b : Build) (env : Env) (q : Nat → Query) (t : Thread) (ps : List Promise) (v : SeccompReturn) :
    ((pledgeCalls b env q t ps v).1, (pledgeCalls b env q t ps v).2.1) = restOf b env q v t 0 (allFilters ps) [] := by
  unfold pledgeCalls restOf
  rw [mapM_filters]
  simp only
  rw [show ((Promise.Default :: ps).map filtersOf).flatten = allFilters ps from rfl]
  rcases fragsBy b env.handler t q 0 (allFilters ps) with ⟨calls, (o | (l | e | _))⟩
  · rfl
  · simp only [lastSteps, bpfHeader_eq, bpfFooter_eq, List.nil_append]
    split
    · rename_i e he
      rw [he]
    · rename_i he
      rw [he]
      simp only
      split <;> (rename_i he2; rw [he2])
  · rfl
  · rfl

theorem rest_run {c : World} {i : Nat} {w : Hand} (h : c.hands[i]? = some w) (hk : w.keys = true) (ha : w.thread.alive = true)
    (seed : Seed) (b : Build) (env : Env) (q : Nat → Query) (ps : List Promise) (v : SeccompReturn) (fs : List Filtered) (k : Nat)
    (codes : List (List SockFilter)) :
    ∃ n, n ≤ fs.length + 2 ∧
      (World.put c i (inCall w w.thread seed ⟨b, env, q, ps, v, .making k fs codes⟩)).run (gos i n) =
        finish c i w (restOf b env q v w.thread k fs codes).1 (restOf b env q v w.thread k fs codes).2 ∧
      Yields (World.put c i (inCall w w.thread seed ⟨b, env, q, ps, v, .making k fs codes⟩)) i n (restOf b env q v w.thread k fs codes).2 := by
  induction fs generalizing k codes with
  | nil =>
    have hs := next_step (seed := seed) (a := ⟨b, env, q, ps, v, .making k [] codes⟩) h hk ha rfl
    have hr := next_result (seed := seed) (a := ⟨b, env, q, ps, v, .making k [] codes⟩) h hk ha
    have hn := end_step (env := env) (q := q) (ps := ps) (t := w.thread) (k := k) (codes := codes) (bpfHeader_eq b) (bpfFooter_eq b v)
    have hl : restOf b env q v w.thread k [] codes = lastSteps b env v w.thread codes := by
      simp only [restOf, fragsBy, List.append_nil]
    rw [hl]
    simp only [lastSteps, bpfHeader_eq, bpfFooter_eq]
    dsimp only at hn
    split at hn
    · rename_i e he
      rw [hn] at hs hr
      refine ⟨1, by simp, ?_, ?_⟩
      · rw [run_gos_succ, hs, he]; rfl
      · rw [he]; exact .now hr
    · rename_i he
      rw [hn] at hs hr
      rw [he]
      have hal := next_alive ⟨b, env, q, ps, v, .making k [] codes⟩ w.thread
      have hpd := next_pid ⟨b, env, q, ps, v, .making k [] codes⟩ w.thread
      rw [hn] at hal hpd
      simp only at hs
      refine ⟨2, by simp, ?_, ?_⟩
      · rw [run_gos_succ, hs, run_gos_succ]
        simp only
        rw [next_step h hk (hal.trans ha) hpd, armed_step]
        dsimp only
        split
        · rename_i e he2
          split at he2 <;> cases he2
        · rename_i e he2
          split at he2
          · cases he2
            rename_i e' he'
            rw [he']; rfl
          · cases he2
            rename_i he'
            rw [he']; rfl
      · refine .later hr (.now ?_)
        rw [hs, next_result h hk (hal.trans ha), armed_step]
        dsimp only
        split
        · rename_i e he2
          split at he2
          · cases he2
            rename_i e' he'
            rw [he']
          · cases he2
            rename_i he'
            rw [he']
        · rename_i e he2
          split at he2 <;> cases he2
  | cons f fs ih =>
    have hs := next_step (seed := seed) (a := ⟨b, env, q, ps, v, .making k (f :: fs) codes⟩) h hk ha rfl
    have hr := next_result (seed := seed) (a := ⟨b, env, q, ps, v, .making k (f :: fs) codes⟩) h hk ha
    rw [frag_step] at hs hr
    have one : ∀ r, (World.put c i (inCall w w.thread seed ⟨b, env, q, ps, v, .making k (f :: fs) codes⟩)).step (.go i) = finish c i w w.thread r →
        nextResult (World.put c i (inCall w w.thread seed ⟨b, env, q, ps, v, .making k (f :: fs) codes⟩)) i = some r →
        restOf b env q v w.thread k (f :: fs) codes = (w.thread, r) →
        ∃ n, n ≤ (f :: fs).length + 2 ∧
          (World.put c i (inCall w w.thread seed ⟨b, env, q, ps, v, .making k (f :: fs) codes⟩)).run (gos i n) =
            finish c i w (restOf b env q v w.thread k (f :: fs) codes).1 (restOf b env q v w.thread k (f :: fs) codes).2 ∧
          Yields (World.put c i (inCall w w.thread seed ⟨b, env, q, ps, v, .making k (f :: fs) codes⟩)) i n
            (restOf b env q v w.thread k (f :: fs) codes).2 := by
      intro r h1 h1' h2
      refine ⟨1, by simp, ?_, ?_⟩
      · rw [run_gos_succ, h1, h2]; rfl
      · rw [h2]; exact .now h1'
    cases hf : fragBy b env.handler w.thread (q k) f with
    | mk calls x =>
      rw [hf] at hs hr
      cases x with
      | error o => exact one (.died o) hs hr (by simp only [restOf, fragsBy, hf])
      | ok x =>
        cases x with
        | err e => exact one (.err e) hs hr (by simp only [restOf, fragsBy, hf])
        | panic => exact one .panic hs hr (by simp only [restOf, fragsBy, hf])
        | ok code =>
          obtain ⟨n, h1, h2, h3⟩ := ih (k + 1) (codes ++ [code])
          simp only at hs
          have : restOf b env q v w.thread (k + 1) fs (codes ++ [code]) = restOf b env q v w.thread k (f :: fs) codes := by
            simp only [restOf, fragsBy, hf]
            rcases fragsBy b env.handler w.thread q (k + 1) fs with ⟨calls', (o | (l | e | _))⟩ <;> simp
          rw [this] at h2 h3
          refine ⟨n + 1, by simp; omega, ?_, .later hr (by rw [hs]; exact h3)⟩
          rw [run_gos_succ, hs, h2]

theorem run_gos_add (c : World) (i m n : Nat) : c.run (gos i (m + n)) = (c.run (gos i m)).run (gos i n) := by
  unfold gos
  rw [← List.replicate_append_replicate, world_run_append]

/-- A call from the moment the promise table is there. -/
theorem start_run {c : World} {i : Nat} {w : Hand} (h : c.hands[i]? = some w) (ha : w.thread.alive = true)
    (seed : Seed) (b : Build) (env : Env) (q : Nat → Query) (ps : List Promise) (v : SeccompReturn) :
    ∃ n, n ≤ (allFilters ps).length + 4 - (if w.keys then 1 else 0) ∧
      ((World.put c i (inCall w w.thread seed ⟨b, env, q, ps, v, .start⟩)).run (gos i n) =
        match (if w.keys then .ok () else askKeys env.handler w.thread seed) with
        | .ok () => finish c i { w with keys := true } (pledgeCalls b env q w.thread ps v).1 (pledgeCalls b env q w.thread ps v).2.1
        | .error r => finish c i w w.thread r) ∧
      Yields (World.put c i (inCall w w.thread seed ⟨b, env, q, ps, v, .start⟩)) i n
        (match (if w.keys then .ok () else askKeys env.handler w.thread seed) with
        | .ok () => (pledgeCalls b env q w.thread ps v).2.1
        | .error r => r) := by
  have e3 : (Act.mk b env q ps v .start).next w.thread = (w.thread, .inl ⟨b, env, q, ps, v, .making 0 (allFilters ps) []⟩) := by
    simp only [Act.next, mapM_filters]; rfl
  have e4 : (World.put c i (inCall w w.thread seed ⟨b, env, q, ps, v, .start⟩)).step (.go i) =
      World.put c i (inCall w w.thread seed ⟨b, env, q, ps, v, .making 0 (allFilters ps) []⟩) := by
    rw [go_rest (put_get h (inCall w w.thread seed ⟨b, env, q, ps, v, .start⟩)) ha rfl]
    simp only [World.advance, inCall, Act.assembles, Bool.false_and, Bool.false_eq_true, if_false, e3]
    unfold World.put Hand.with
    simp
  have r4 : nextResult (World.put c i (inCall w w.thread seed ⟨b, env, q, ps, v, .start⟩)) i = none := by
    unfold nextResult
    rw [put_get h]
    simp only [inCall, ha, if_true, Act.assembles, Bool.false_and, Bool.false_eq_true, if_false, e3]
  have hcr := calls_rest b env q w.thread ps v
  have c1 := congrArg Prod.fst hcr
  have c2 := congrArg Prod.snd hcr
  dsimp only at c1 c2
  rw [c1, c2]
  cases hk : w.keys with
  | true =>
    obtain ⟨n, h1, h2, h3⟩ := rest_run h hk ha seed b env q ps v (allFilters ps) 0 []
    refine ⟨n + 1, by simp; omega, ?_, .later r4 (by rw [e4]; exact h3)⟩
    rw [run_gos_succ, e4, h2]
    simp only [if_true]
    rw [← hk]
  | false =>
    have e5 : (World.put c i (inCall w w.thread seed ⟨b, env, q, ps, v, .making 0 (allFilters ps) []⟩)).step (.go i) =
        match askKeys env.handler w.thread seed with
        | .ok () => World.put c i (inCall { w with keys := true } w.thread seed ⟨b, env, q, ps, v, .making 0 (allFilters ps) []⟩)
        | .error r => finish c i w w.thread r := by
      rw [go_rest (put_get h (inCall w w.thread seed ⟨b, env, q, ps, v, .making 0 (allFilters ps) []⟩)) ha rfl]
      simp only [World.advance, inCall, Act.assembles, hk, Bool.not_false, Bool.true_and, if_true]
      cases askKeys env.handler w.thread seed with
      | ok u => simp [World.put]
      | error r =>
        simp only [World.ends, finish, World.put, List.set_set, List.tail_cons]
        cases r.death with
        | none => simp [hk]
        | some o => simp [World.lose, hk]
    have r5 : nextResult (World.put c i (inCall w w.thread seed ⟨b, env, q, ps, v, .making 0 (allFilters ps) []⟩)) i =
        match askKeys env.handler w.thread seed with | .ok () => none | .error r => some r := by
      unfold nextResult
      rw [put_get h]
      simp only [inCall, ha, if_true, Act.assembles, hk, Bool.not_false, Bool.true_and, keysEnd, Bool.false_eq_true, if_false]
      rfl
    simp only [Bool.false_eq_true, if_false]
    cases hq : askKeys env.handler w.thread seed with
    | error r =>
      rw [hq] at e5 r5
      refine ⟨2, by omega, ?_, .later r4 (.now (by rw [e4]; exact r5))⟩
      rw [run_gos_succ, e4, run_gos_succ, e5]; rfl
    | ok u =>
      rw [hq] at e5 r5
      simp only at e5
      have hg := put_get h { w with keys := true }
      obtain ⟨n, h1, h2, h3⟩ := rest_run hg rfl ha seed b env q ps v (allFilters ps) 0 []
      rw [put_put] at h3
      refine ⟨n + 2, by omega, ?_, .later r4 (.later (by rw [e4]; exact r5) (by rw [e4, e5]; exact h3))⟩
      rw [run_gos_succ, e4, run_gos_succ, e5]
      simp only
      rw [put_put] at h2
      rw [h2]
      simp only [finish, put_put]

/-- The world after a call: also the table may have changed. -/
theorem alone_run {c : World} {i : Nat} {w : Hand} (h : c.hands[i]? = some w) (ha : w.thread.alive = true) (x : Cell)
    (hx : c.cells[w.mem]? = some x) (seed : Seed) (b : Build) (env : Env) (q : Nat → Query) (ps : List Promise) (v : SeccompReturn)
    (r : Upshot) (hr : upshot b env q seed w.thread w.keys x ps v = some r) :
    ∃ n, n ≤ (allFilters ps).length + 5 ∧
      c.run (.enter i b env q seed ps v :: gos i n) =
        finish { c with cells := c.cells.set w.mem r.cell } i { w with keys := r.keys } r.thread r.res ∧
      resultsIn c (.enter i b env q seed ps v :: gos i n) = [(i, r.res)] := by
  have e1 : c.step (.enter i b env q seed ps v) =
      World.put c i { w with errands := ⟨⟨b, env, q, ps, v, .start⟩, seed, .table⟩ :: w.errands } := by
    simp only [World.step, h, ha, if_true]; rfl
  have e2 := go_rest (put_get h { w with errands := ⟨⟨b, env, q, ps, v, .start⟩, seed, .table⟩ :: w.errands }) ha rfl
  have hcell : (World.put c i { w with errands := ⟨⟨b, env, q, ps, v, .start⟩, seed, .table⟩ :: w.errands }).cells = c.cells := rfl
  have hm := (List.getElem?_eq_some_iff.1 hx).1
  have res : ∀ n r, Yields (World.put c i { w with errands := ⟨⟨b, env, q, ps, v, .start⟩, seed, .table⟩ :: w.errands }) i n r →
      resultsIn c (.enter i b env q seed ps v :: gos i n) = [(i, r)] := by
    intro n r hy
    show [] ++ resultsIn (c.step _) _ = _
    rw [e1]; exact hy
  have r2 : nextResult (World.put c i { w with errands := ⟨⟨b, env, q, ps, v, .start⟩, seed, .table⟩ :: w.errands }) i =
      if x = .poisoned then some .panic else none := by
    unfold nextResult
    rw [put_get h]
    simp only [ha, if_true, hcell, hx, Option.some.injEq]
  have start : ∀ n, c.run (.enter i b env q seed ps v :: gos i (n + 1)) =
      ((World.put c i { w with errands := ⟨⟨b, env, q, ps, v, .start⟩, seed, .table⟩ :: w.errands }).step (.go i)).run (gos i n) := by
    intro n
    show (c.step _).run _ = _
    rw [e1, run_gos_succ]
  cases x with
  | running => cases hr
  | poisoned =>
    simp only [upshot, Option.some.injEq] at hr
    subst hr
    refine ⟨1, by omega, ?_, res _ _ (.now r2)⟩
    rw [start, e2]
    simp only [World.advance, hcell, hx]
    rw [set_there hx]
    simp only [World.ends, PledgeRes.death, World.put, finish, List.set_set, List.tail_cons]
    rfl
  | ready =>
    have e3 : (World.put c i { w with errands := ⟨⟨b, env, q, ps, v, .start⟩, seed, .table⟩ :: w.errands }).step (.go i) =
        World.put c i (inCall w w.thread seed ⟨b, env, q, ps, v, .start⟩) := by
      rw [e2]
      simp only [World.advance, hcell, hx]
      simp only [World.put, Hand.with, List.set_set, List.tail_cons, inCall]
    obtain ⟨n, h1, h2, h3⟩ := start_run h ha seed b env q ps v
    refine ⟨n + 1, by omega, ?_⟩
    rw [start, e3, h2]
    have hy := res (n + 1) _ (.later r2 (by rw [e3]; exact h3))
    simp only [upshot] at hr
    have hkeyed : ∀ e, (if w.keys then (.ok () : Except PledgeRes Unit) else askKeys env.handler w.thread seed) = .error e → w.keys = false := by
      intro e he
      cases hk : w.keys with
      | false => rfl
      | true => rw [hk] at he; cases he
    split at hr
    · rename_i he
      cases hr
      simp only [he] at hy ⊢
      refine ⟨?_, hy⟩
      rw [set_there hx]
    · rename_i e he
      cases hr
      simp only [he] at hy ⊢
      refine ⟨?_, hy⟩
      rw [set_there hx, ← hkeyed _ he]
  | idle =>
    let c1 : World := { c with cells := c.cells.set w.mem .running }
    have e3 : (World.put c i { w with errands := ⟨⟨b, env, q, ps, v, .start⟩, seed, .table⟩ :: w.errands }).step (.go i) =
        World.put c1 i { w with errands := ⟨⟨b, env, q, ps, v, .start⟩, seed, .init⟩ :: w.errands } := by
      rw [e2]
      simp only [World.advance, hcell, hx]
      simp only [World.put, Hand.with, List.set_set, List.tail_cons, c1]
    have hg : c1.hands[i]? = some w := h
    have e4 := go_rest (put_get hg { w with errands := ⟨⟨b, env, q, ps, v, .start⟩, seed, .init⟩ :: w.errands }) ha rfl
    let c2 : World := { c with cells := c.cells.set w.mem .ready }
    have e5 : (if w.keys then (.ok () : Except PledgeRes Unit) else askKeys env.handler w.thread seed) = .ok () →
        (World.put c1 i { w with errands := ⟨⟨b, env, q, ps, v, .start⟩, seed, .init⟩ :: w.errands }).step (.go i) =
        World.put c2 i (inCall { w with keys := true } w.thread seed ⟨b, env, q, ps, v, .start⟩) := by
      intro hk
      rw [e4]
      simp only [World.advance]
      cases hkk : w.keys with
      | true => simp [World.put, Hand.with, inCall, c1, c2]
      | false =>
        rw [hkk] at hk
        simp only [Bool.false_eq_true, if_false] at hk ⊢
        rw [hk]
        simp [World.put, Hand.with, inCall, c1, c2]
    have e6 : ∀ r, (if w.keys then (.ok () : Except PledgeRes Unit) else askKeys env.handler w.thread seed) = .error r →
        (World.put c1 i { w with errands := ⟨⟨b, env, q, ps, v, .start⟩, seed, .init⟩ :: w.errands }).step (.go i) =
        finish { c with cells := c.cells.set w.mem (if r = .panic then .poisoned else .running) } i { w with keys := false } w.thread r := by
      intro r hk
      rw [e4]
      simp only [World.advance]
      cases hkk : w.keys with
      | true => rw [hkk] at hk; cases hk
      | false =>
        rw [hkk] at hk
        simp only [Bool.false_eq_true, if_false] at hk ⊢
        rw [hk]
        cases r with
        | panic => simp [World.ends, PledgeRes.death, World.put, finish, c1]
        | died o => simp [World.ends, PledgeRes.death, World.put, World.lose, finish, c1]
        | ok => simp [World.ends, PledgeRes.death, World.put, finish, c1]
        | err e => simp [World.ends, PledgeRes.death, World.put, finish, c1]
    have r6 : nextResult (World.put c1 i { w with errands := ⟨⟨b, env, q, ps, v, .start⟩, seed, .init⟩ :: w.errands }) i =
        match (if w.keys then (.ok () : Except PledgeRes Unit) else askKeys env.handler w.thread seed) with
        | .ok () => none
        | .error r => some r := by
      unfold nextResult
      rw [put_get hg]
      simp only [ha, if_true, keysEnd]
      cases w.keys <;> rfl
    simp only [upshot] at hr
    split at hr
    · rename_i he
      cases hr
      have hg2 := put_get (c := c2) h { w with keys := true }
      obtain ⟨n, h1, h2, h3⟩ := start_run hg2 ha seed b env q ps v
      rw [put_put] at h3
      refine ⟨n + 2, by simp only [if_true] at h1; omega, ?_,
        res _ _ (.later r2 (.later (by rw [e3, r6, he]) (by rw [e3, e5 he]; exact h3)))⟩
      rw [start, e3, run_gos_succ, e5 he]
      rw [put_put] at h2
      rw [h2]
      simp only [if_true, finish, put_put, c2]
    · rename_i e he
      cases hr
      refine ⟨2, by omega, ?_, res _ _ (.later r2 (.now (by rw [e3, r6, he])))⟩
      rw [start, e3, run_gos_succ, e6 e he]; rfl

/-- A call waits while another thread makes the table. -/
theorem alone_waits {c : World} {i : Nat} {w : Hand} (h : c.hands[i]? = some w) (ha : w.thread.alive = true)
    (hx : c.cells[w.mem]? = some .running) (seed : Seed) (b : Build) (env : Env) (q : Nat → Query) (ps : List Promise)
    (v : SeccompReturn) (n : Nat) :
    c.run (.enter i b env q seed ps v :: gos i n) =
      { c with hands := c.hands.set i { w with errands := ⟨⟨b, env, q, ps, v, .start⟩, seed, .table⟩ :: w.errands } } := by
  have e1 : c.step (.enter i b env q seed ps v) =
      World.put c i { w with errands := ⟨⟨b, env, q, ps, v, .start⟩, seed, .table⟩ :: w.errands } := by
    simp only [World.step, h, ha, if_true]; rfl
  show (c.step _).run _ = World.put c i _
  rw [e1]
  induction n with
  | zero => rfl
  | succ n ih =>
    rw [run_gos_succ, go_rest (put_get h { w with errands := ⟨⟨b, env, q, ps, v, .start⟩, seed, .table⟩ :: w.errands }) ha rfl]
    simp only [World.advance]
    rw [show (World.put c i { w with errands := ⟨⟨b, env, q, ps, v, .start⟩, seed, .table⟩ :: w.errands }).cells = c.cells from rfl, hx]
    exact ih

end Spec
