import Verif.Spec.Account
import Verif.Proofs.Table
import Verif.Props.Alloc

/-!
# Calls of the simple models as runs of `Model/Full`
-/
set_option autoImplicit false

namespace Spec
open Pledge Bpfvm Kernel Props

/-- The world with thread `i` replaced. -/
def World.put (c : World) (i : Nat) (w : Hand) : World := { c with hands := c.hands.set i w }

/-- The world after the death of thread `i`. -/
def World.lose (c : World) (i : Nat) (pid : BitVec 32) (o : Outcome) : World := c.withThreads (reap c.threads i pid o)

theorem withThreads_self (c : World) : c.withThreads c.threads = c := by
  unfold World.withThreads World.threads
  cases c with
  | mk hands cells =>
    simp only [World.mk.injEq, and_true]
    induction hands with
    | nil => rfl
    | cons w hands ih => simp only [List.map_cons, List.zipWith_cons_cons, ih]

theorem world_threads_get {c : World} {i : Nat} {w : Hand} (h : c.hands[i]? = some w) : c.threads[i]? = some w.thread := by
  unfold World.threads; rw [List.getElem?_map, h]; rfl

theorem put_get {c : World} {i : Nat} {w : Hand} (h : c.hands[i]? = some w) (w' : Hand) : (World.put c i w').hands[i]? = some w' := by
  unfold World.put
  rw [List.getElem?_set_self (List.getElem?_eq_some_iff.1 h).1]

theorem put_put (c : World) (i : Nat) (w w' : Hand) : World.put (World.put c i w) i w' = World.put c i w' := by
  unfold World.put; simp

theorem put_self {c : World} {i : Nat} {w : Hand} (h : c.hands[i]? = some w) : World.put c i w = c := by
  unfold World.put; rw [set_there h]

theorem other_call {c : World} {i : Nat} {w : Hand} (h : c.hands[i]? = some w) (ha : w.thread.alive = true) (d : SeccompData)
    (x : Option Int) :
    c.step (.other (.call i d x)) =
      match deathOf (syscall x w.thread d fun t => (t, 0)).2 with
      | some o => World.lose c i w.thread.pid o
      | none => c := by
  simp only [World.step, System.step, System.on, world_threads_get h, ha, if_true]
  split
  · rename_i o ho
    rw [ho]; simp only
    rw [set_self (world_threads_get h)]; rfl
  · rename_i ho
    rw [ho]; simp only
    rw [set_self (world_threads_get h), withThreads_self]

theorem other_crash {c : World} {i : Nat} {w : Hand} (h : c.hands[i]? = some w) (ha : w.thread.alive = true) :
    c.step (.other (.crash i true)) = World.lose c i w.thread.pid .killProcess := by
  simp only [World.step, System.step, System.on, world_threads_get h, ha, if_true]
  rw [set_self (world_threads_get h)]; rfl

/-- The allocator at work. -/
theorem manage_run {c : World} {i : Nat} {w : Hand} (h : c.hands[i]? = some w) (ha : w.thread.alive = true) (handler : Bool)
    (cs : List MemCall) (P : MemCall → Prop) (hsub : ∀ x ∈ cs, P x) :
    ∃ hs, (∀ m ∈ hs, OwnStep i handler P m) ∧
      match manage handler w.thread cs with
      | none => c.run hs = c
      | some e => ∃ o, deathIn e = some o ∧ c.run hs = World.lose c i w.thread.pid o := by
  induction cs with
  | nil => exact ⟨[], by simp, rfl⟩
  | cons x cs ih =>
    obtain ⟨hs, h1, h2⟩ := ih fun y hy => hsub y (by simp [hy])
    have hx := hsub x (by simp)
    let m : Happening := .other (.call i x.d (if handler then some 0 else none))
    have own : OwnStep i handler P m := .inr (.inl ⟨x, hx, 0, rfl⟩)
    have live : deathOf (syscall (if handler then some 0 else none) w.thread x.d fun t => (t, 0)).2 = none →
        ∀ r : Reaction, ∃ hs, (∀ m ∈ hs, OwnStep i handler P m) ∧
        match (match r with | .goesOn => manage handler w.thread cs | .givesUp => some Ending.aborted) with
        | none => c.run hs = c
        | some e => ∃ o, deathIn e = some o ∧ c.run hs = World.lose c i w.thread.pid o := by
      intro hd r
      have hstep : c.step m = c := by
        rw [other_call h ha, hd]
      cases r with
      | goesOn =>
        refine ⟨m :: hs, ?_, ?_⟩
        · intro y hy
          rcases List.mem_cons.1 hy with rfl | hy
          · exact own
          · exact h1 y hy
        · have : c.run (m :: hs) = c.run hs := by
            show (c.step m).run hs = _
            rw [hstep]
          simp only [this]
          exact h2
      | givesUp =>
        refine ⟨[m, .other (.crash i true)], ?_, ?_⟩
        · intro y hy
          simp only [List.mem_cons, List.not_mem_nil, or_false] at hy
          rcases hy with rfl | rfl
          · exact own
          · exact .inr (.inr rfl)
        · refine ⟨.killProcess, rfl, ?_⟩
          show (c.step m).step (.other (.crash i true)) = _
          rw [hstep, other_crash h ha]
    have dead : ∀ o, deathOf (syscall (if handler then some 0 else none) w.thread x.d fun t => (t, 0)).2 = some o →
        ∃ hs, (∀ m ∈ hs, OwnStep i handler P m) ∧ ∃ o', deathIn (Ending.died o) = some o' ∧ c.run hs = World.lose c i w.thread.pid o' := by
      intro o hd
      refine ⟨[m], by simp [own], o, rfl, ?_⟩
      show c.step m = _
      rw [other_call h ha, hd]
    unfold manage
    dsimp only
    cases he : enter w.thread x.d with
    | executed => exact live (by simp [syscall, he, deathOf]) x.executed
    | errno n => exact live (by simp [syscall, he, deathOf]) x.refused
    | trap =>
      cases handler with
      | true => exact live (by simp [syscall, he, deathOf]) x.refused
      | false => exact dead .trap (by simp [syscall, he, deathOf])
    | killProcess => exact dead .killProcess (by simp [syscall, he, deathOf])
    | killThread => exact dead .killThread (by simp [syscall, he, deathOf])

/-! ## the library's own steps -/

/-- The thread with innermost call `a` at site `rest`, on top of what it was in before. -/
def inCall (w : Hand) (t : Thread) (seed : Seed) (a : Act) : Hand := { w with thread := t, errands := ⟨a, seed, .rest⟩ :: w.errands }

theorem go_rest {c : World} {i : Nat} {w : Hand} {f : Errand} {rest : List Errand} (h : c.hands[i]? = some w) (ha : w.thread.alive = true)
    (hf : w.errands = f :: rest) : c.step (.go i) = c.advance i w f := by
  simp only [World.step, h, hf, ha, if_true]

theorem go_inl {c : World} {i : Nat} {w : Hand} {t t' : Thread} {seed : Seed} {a a' : Act} (h : c.hands[i]? = some w) (hk : w.keys = true)
    (ha : t.alive = true) (hn : a.next t = (t', .inl a')) :
    (World.put c i (inCall w t seed a)).step (.go i) = World.put c i (inCall w t' seed a') := by
  rw [go_rest (put_get h (inCall w t seed a)) ha rfl]
  simp only [World.advance, inCall, hk, Bool.not_true, Bool.and_false, Bool.false_eq_true, if_false, hn]
  unfold World.put Hand.with
  simp

theorem go_inr {c : World} {i : Nat} {w : Hand} {t t' : Thread} {seed : Seed} {a : Act} {r : PledgeRes} (h : c.hands[i]? = some w)
    (hk : w.keys = true) (ha : t.alive = true) (hn : a.next t = (t', .inr r)) :
    (World.put c i (inCall w t seed a)).step (.go i) =
      match r.death with
      | some o => World.lose (World.put c i { w with thread := t' }) i t'.pid o
      | none => World.put c i { w with thread := t' } := by
  rw [go_rest (put_get h (inCall w t seed a)) ha rfl]
  simp only [World.advance, inCall, hk, Bool.not_true, Bool.and_false, Bool.false_eq_true, if_false, hn]
  unfold World.ends World.put
  simp only [List.tail_cons, List.set_set]
  rfl

/-- How a call that began in world `c` with thread `i` being `w` may end: the thread has become `t`, and is dead if `e` is a death. -/
def Done (c : World) (i : Nat) (w : Hand) (t : Thread) (e : Ending) (c' : World) : Prop :=
  match deathIn e with
  | some o => ∃ es, c' = World.lose (World.put c i { w with thread := t, errands := es }) i w.thread.pid o
  | none => c' = World.put c i { w with thread := t }

theorem world_run_append (c : World) (hs hs' : List Happening) : c.run (hs ++ hs') = (c.run hs).run hs' := by
  unfold World.run; rw [List.foldl_append]

/-- The end of a call: the last step is done, the program is freed. -/
theorem leave_run {c : World} {i : Nat} {w : Hand} {t t' : Thread} {seed : Seed} {a : Act} {r : PledgeRes} (h : c.hands[i]? = some w)
    (hk : w.keys = true) (ha : t.alive = true) (ha' : t'.alive = true) (hp : t'.pid = w.thread.pid) (hn : a.next t = (t', .inr r))
    (handler : Bool) (drop : List MemCall) (P : MemCall → Prop) (hsub : ∀ x ∈ drop, P x) :
    ∃ hs, (∀ m ∈ hs, OwnStep i handler P m) ∧
      Done c i w (leave handler drop t' r).1 (leave handler drop t' r).2 ((World.put c i (inCall w t seed a)).run hs) := by
  have hstep := go_inr (seed := seed) h hk ha hn
  cases r with
  | died o =>
    refine ⟨[.go i], by simp [OwnStep], ?_⟩
    show Done c i w _ _ ((World.put c i (inCall w t seed a)).step (.go i))
    rw [hstep]
    simp only [leave, Done, deathIn, PledgeRes.death, hp]
    exact ⟨w.errands, rfl⟩
  | ok | err e | panic =>
    simp only [PledgeRes.death] at hstep
    obtain ⟨hs, h1, h2⟩ := manage_run (put_get h { w with thread := t' }) ha' handler drop P hsub
    refine ⟨.go i :: hs, ?_, ?_⟩
    · intro m hm
      rcases List.mem_cons.1 hm with rfl | hm
      · exact .inl rfl
      · exact h1 m hm
    · show Done c i w _ _ (((World.put c i (inCall w t seed a)).step (.go i)).run hs)
      rw [hstep]
      simp only [leave]
      cases hm : manage handler t' drop with
      | none =>
        simp only [hm] at h2
        simp only [Done, deathIn]
        exact h2
      | some e =>
        simp only [hm, hp] at h2
        obtain ⟨o, ho, h2⟩ := h2
        simp only [Done, ho]
        exact ⟨w.errands, h2⟩

theorem frag_step {b : Build} {env : Env} {q : Nat → Query} {ps : List Promise} {v : SeccompReturn} {t : Thread} {k : Nat} {f : Filtered}
    {fs : List Filtered} {codes : List (List SockFilter)} :
    (Act.mk b env q ps v (.making k (f :: fs) codes)).next t =
    match (fragBy b env.handler t (q k) f).2 with
    | .error o => (t, .inr (.died o))
    | .ok (.err e) => (t, .inr (.err e))
    | .ok .panic => (t, .inr .panic)
    | .ok (.ok code) => (t, .inl ⟨b, env, q, ps, v, .making (k + 1) fs (codes ++ [code])⟩) := rfl

/-- The fragments, with the allocator's calls before each of them and after the last one. -/
theorem making_run {c : World} {i : Nat} {w : Hand} (h : c.hands[i]? = some w) (hk : w.keys = true) (ha : w.thread.alive = true)
    (seed : Seed) (b : Build) (env : Env) (q : Nat → Query) (ps : List Promise) (v : SeccompReturn) (mem : Nat → List MemCall)
    (drop : List MemCall) (P : MemCall → Prop) (hmem : ∀ k, ∀ x ∈ mem k, P x) (hdrop : ∀ x ∈ drop, P x)
    (fs : List Filtered) (k : Nat) (codes : List (List SockFilter)) :
    ∃ hs, (∀ m ∈ hs, OwnStep i env.handler P m) ∧
      let c' := (World.put c i (inCall w w.thread seed ⟨b, env, q, ps, v, .making k fs codes⟩)).run hs
      match fragsMem b env.handler w.thread q mem k fs with
      | .error e => Done c i w w.thread e c'
      | .ok (.err e) => Done c i w (leave env.handler drop w.thread (.err e)).1 (leave env.handler drop w.thread (.err e)).2 c'
      | .ok .panic => Done c i w (leave env.handler drop w.thread .panic).1 (leave env.handler drop w.thread .panic).2 c'
      | .ok (.ok l) => c' = World.put c i (inCall w w.thread seed ⟨b, env, q, ps, v, .making (k + fs.length) [] (codes ++ l)⟩) := by
  induction fs generalizing k codes with
  | nil =>
    obtain ⟨hs, h1, h2⟩ := manage_run (put_get h (inCall w w.thread seed ⟨b, env, q, ps, v, .making k [] codes⟩)) ha env.handler (mem k) P (hmem k)
    refine ⟨hs, h1, ?_⟩
    dsimp only
    simp only [fragsMem]
    simp only [inCall] at h2
    cases hm : manage env.handler w.thread (mem k) with
    | none =>
      simp only [hm] at h2
      simp only [List.length_nil, Nat.add_zero, List.append_nil]
      exact h2
    | some e =>
      simp only [hm] at h2
      obtain ⟨o, ho, h2⟩ := h2
      simp only [Done, ho]
      exact ⟨_, h2⟩
  | cons f fs ih =>
    obtain ⟨hs, h1, h2⟩ := manage_run (put_get h (inCall w w.thread seed ⟨b, env, q, ps, v, .making k (f :: fs) codes⟩)) ha env.handler (mem k) P (hmem k)
    dsimp only
    simp only [fragsMem]
    simp only [show (inCall w w.thread seed ⟨b, env, q, ps, v, .making k (f :: fs) codes⟩).thread = w.thread from rfl] at h2
    cases hm : manage env.handler w.thread (mem k) with
    | some e =>
      simp only [hm] at h2
      obtain ⟨o, ho, h2⟩ := h2
      refine ⟨hs, h1, ?_⟩
      simp only [Done, ho]
      exact ⟨_, h2⟩
    | none =>
      simp only [hm] at h2
      have fin : ∀ r, (Act.mk b env q ps v (.making k (f :: fs) codes)).next w.thread = (w.thread, .inr r) →
          ∃ hs, (∀ m ∈ hs, OwnStep i env.handler P m) ∧
          Done c i w (leave env.handler drop w.thread r).1 (leave env.handler drop w.thread r).2
            ((World.put c i (inCall w w.thread seed ⟨b, env, q, ps, v, .making k (f :: fs) codes⟩)).run hs) := by
        intro r hn
        obtain ⟨hs', g1, g2⟩ := leave_run (seed := seed) h hk ha ha rfl hn env.handler drop P hdrop
        refine ⟨hs ++ hs', ?_, ?_⟩
        · intro m hm
          rcases List.mem_append.1 hm with hm | hm
          · exact h1 m hm
          · exact g1 m hm
        · rw [world_run_append, h2]; exact g2
      cases hfr : (fragBy b env.handler w.thread (q k) f).2 with
      | error o => exact fin (.died o) (by rw [frag_step, hfr])
      | ok r =>
        cases r with
        | err e => exact fin (.err e) (by rw [frag_step, hfr])
        | panic => exact fin .panic (by rw [frag_step, hfr])
        | ok code =>
          simp only
          have hn : (Act.mk b env q ps v (.making k (f :: fs) codes)).next w.thread =
            (w.thread, .inl ⟨b, env, q, ps, v, .making (k + 1) fs (codes ++ [code])⟩) := by rw [frag_step, hfr]
          have hgo := go_inl (seed := seed) h hk ha hn
          obtain ⟨hs', g1, g2⟩ := ih (k + 1) (codes ++ [code])
          refine ⟨hs ++ .go i :: hs', ?_, ?_⟩
          · intro m hm
            rcases List.mem_append.1 hm with hm | hm
            · exact h1 m hm
            · rcases List.mem_cons.1 hm with rfl | hm
              · exact .inl rfl
              · exact g1 m hm
          · have hr : (World.put c i (inCall w w.thread seed ⟨b, env, q, ps, v, .making k (f :: fs) codes⟩)).run (hs ++ .go i :: hs') =
                (World.put c i (inCall w w.thread seed ⟨b, env, q, ps, v, .making (k + 1) fs (codes ++ [code])⟩)).run hs' := by
              rw [world_run_append, h2]
              show (World.step _ (.go i)).run hs' = _
              rw [hgo]
            rw [hr]
            dsimp only at g2
            cases hx : fragsMem b env.handler w.thread q mem (k + 1) fs with
            | error e => rw [hx] at g2; exact g2
            | ok r =>
              rw [hx] at g2
              cases r with
              | err e => exact g2
              | panic => exact g2
              | ok l =>
                simp only at g2 ⊢
                rw [g2]
                simp only [List.length_cons, List.append_assoc, List.singleton_append, show k + 1 + fs.length = k + (fs.length + 1) by omega]

/-- Some steps, then more. -/
theorem more_steps {i : Nat} {handler : Bool} {P : MemCall → Prop} {c c' : World} {Q : World → Prop} {hs : List Happening}
    (h1 : ∀ m ∈ hs, OwnStep i handler P m) (h2 : c.run hs = c') (h : ∃ hs', (∀ m ∈ hs', OwnStep i handler P m) ∧ Q (c'.run hs')) :
    ∃ hs', (∀ m ∈ hs', OwnStep i handler P m) ∧ Q (c.run hs') := by
  obtain ⟨hs', g1, g2⟩ := h
  refine ⟨hs ++ hs', fun m hm => ?_, by rw [world_run_append, h2]; exact g2⟩
  rcases List.mem_append.1 hm with hm | hm
  · exact h1 m hm
  · exact g1 m hm

theorem armed_step {b : Build} {env : Env} {q : Nat → Query} {ps : List Promise} {v : SeccompReturn} {t : Thread} {prog : List SockFilter} :
    (Act.mk b env q ps v (.armed prog)).next t =
    let r := syscall (env.onTrap env.trapRet.2) t (recSeccomp env) (setSeccomp env.seccompFault (prog.take (prog.length % 2 ^ 16)))
    match checkRet env.errno.2 r.2 with
    | some e => (r.1, .inr e)
    | none => (r.1, .inr .ok) := rfl

theorem end_step {b : Build} {env : Env} {q : Nat → Query} {ps : List Promise} {v : SeccompReturn} {t : Thread} {k : Nat}
    {codes : List (List SockFilter)} {header footer : List SockFilter} (hh : bpfHeader b = .ok header) (hf : bpfFooter b v = .ok footer) :
    (Act.mk b env q ps v (.making k [] codes)).next t =
    let r := syscall (env.onTrap env.trapRet.1) t (recNnp env) (setNnp env.nnpFault)
    match checkRet env.errno.1 r.2 with
    | some e => (r.1, .inr e)
    | none => (r.1, .inl ⟨b, env, q, ps, v, .armed ([header] ++ codes ++ [footer]).flatten⟩) := by
  simp only [Act.next, hh, hf]; rfl

/-- A whole call, alone. -/
theorem call_run {c : World} {i : Nat} {w : Hand} (h : c.hands[i]? = some w) (hk : w.keys = true) (ha : w.thread.alive = true)
    (hc : c.cells[w.mem]? = some .ready) (seed : Seed) (b : Build) (env : Env) (q : Nat → Query) (ps : List Promise) (v : SeccompReturn)
    (mem : Nat → List MemCall) (drop : List MemCall) :
    ∃ hs, (∀ m ∈ hs, OwnStep i env.handler (fun x => (∃ k, x ∈ mem k) ∨ x ∈ drop) m) ∧
      Done c i w (pledgeMem b env q mem drop w.thread ps v).1 (pledgeMem b env q mem drop w.thread ps v).2
        (c.run (.enter i b env q seed ps v :: hs)) := by
  let P : MemCall → Prop := fun x => (∃ k, x ∈ mem k) ∨ x ∈ drop
  let a (p : Phase) : Act := ⟨b, env, q, ps, v, p⟩
  -- the call, the look at the table and the lookup of the promises
  have e1 : c.step (.enter i b env q seed ps v) = World.put c i { w with errands := ⟨a .start, seed, .table⟩ :: w.errands } := by
    simp only [World.step, h, ha, if_true]; rfl
  have e2 : (World.put c i { w with errands := ⟨a .start, seed, .table⟩ :: w.errands }).step (.go i) =
      World.put c i (inCall w w.thread seed (a .start)) := by
    rw [go_rest (put_get h { w with errands := ⟨a .start, seed, .table⟩ :: w.errands }) ha rfl]
    simp only [World.advance]
    rw [show (World.put c i { w with errands := ⟨a .start, seed, .table⟩ :: w.errands }).cells = c.cells from rfl, hc]
    simp only [World.put, Hand.with, List.set_set, List.tail_cons, inCall]
  have e3 : (a .start).next w.thread = (w.thread, .inl (a (.making 0 (allFilters ps) []))) := by
    simp only [Act.next, a, mapM_filters]; rfl
  have e4 := go_inl (seed := seed) h hk ha e3
  have begun : (c.step (.enter i b env q seed ps v)).run [.go i, .go i] = World.put c i (inCall w w.thread seed (a (.making 0 (allFilters ps) []))) := by
    show ((c.step (.enter i b env q seed ps v)).step (.go i)).step (.go i) = _
    rw [e1, e2, e4]
  show ∃ hs, (∀ m ∈ hs, OwnStep i env.handler P m) ∧
      Done c i w (pledgeMem b env q mem drop w.thread ps v).1 (pledgeMem b env q mem drop w.thread ps v).2
        ((c.step (.enter i b env q seed ps v)).run hs)
  refine more_steps (Q := Done c i w (pledgeMem b env q mem drop w.thread ps v).1 (pledgeMem b env q mem drop w.thread ps v).2)
    (by intro m hm; simp only [List.mem_cons, List.not_mem_nil, or_false, or_self] at hm; exact .inl hm) begun ?_
  obtain ⟨hs, h1, h2⟩ := making_run h hk ha seed b env q ps v mem drop P (fun k x hx => .inl ⟨k, hx⟩) (fun x hx => .inr hx) (allFilters ps) 0 []
  dsimp only at h2
  unfold pledgeMem
  rw [mapM_filters]
  simp only
  rw [show ((Promise.Default :: ps).map filtersOf).flatten = allFilters ps from rfl]
  cases hf : fragsMem b env.handler w.thread q mem 0 (allFilters ps) with
  | error e => rw [hf] at h2; exact ⟨hs, h1, h2⟩
  | ok r =>
    rw [hf] at h2
    cases r with
    | err e => exact ⟨hs, h1, h2⟩
    | panic => exact ⟨hs, h1, h2⟩
    | ok l =>
      simp only at h2 ⊢
      refine more_steps (Q := Done c i w _ _) h1 h2 ?_
      rw [bpfHeader_eq, bpfFooter_eq]
      simp only
      have hn := end_step (env := env) (q := q) (ps := ps) (t := w.thread) (k := 0 + (allFilters ps).length) (codes := [] ++ l)
        (bpfHeader_eq b) (bpfFooter_eq b v)
      dsimp only at hn
      rw [List.nil_append] at hn ⊢
      have hal : ∀ (x : Act) (t t' : Thread) r, t.alive = true → x.next t = (t', r) → t'.alive = true := by
        intro x t t' r h0 hx
        have := next_alive x t
        rw [hx] at this; rw [this]; exact h0
      have hpid : ∀ (x : Act) (t t' : Thread) r, x.next t = (t', r) → t'.pid = t.pid := by
        intro x t t' r hx
        have := next_pid x t
        rw [hx] at this; exact this
      split at hn
      · rename_i e he
        rw [he]
        simp only
        exact leave_run h hk ha (hal _ _ _ _ ha hn) (hpid _ _ _ _ hn) hn env.handler drop P (fun x hx => .inr hx)
      · rename_i he
        rw [he]
        simp only
        have hgo := go_inl (seed := seed) h hk ha hn
        have hal1 := hal _ _ _ _ ha hn
        have hpid1 := hpid _ _ _ _ hn
        refine more_steps (Q := Done c i w _ _) (hs := [.go i]) (by simp [OwnStep]) hgo ?_
        have last : ∀ prog t, t.alive = true → t.pid = w.thread.pid →
            ∃ hs', (∀ m ∈ hs', OwnStep i env.handler P m) ∧
              Done c i w
                (match checkRet env.errno.2 (syscall (env.onTrap env.trapRet.2) t (recSeccomp env) (setSeccomp env.seccompFault (prog.take (prog.length % 2 ^ 16)))).2 with
                  | some e => leave env.handler drop (syscall (env.onTrap env.trapRet.2) t (recSeccomp env) (setSeccomp env.seccompFault (prog.take (prog.length % 2 ^ 16)))).1 e
                  | none => leave env.handler drop (syscall (env.onTrap env.trapRet.2) t (recSeccomp env) (setSeccomp env.seccompFault (prog.take (prog.length % 2 ^ 16)))).1 .ok).1
                (match checkRet env.errno.2 (syscall (env.onTrap env.trapRet.2) t (recSeccomp env) (setSeccomp env.seccompFault (prog.take (prog.length % 2 ^ 16)))).2 with
                  | some e => leave env.handler drop (syscall (env.onTrap env.trapRet.2) t (recSeccomp env) (setSeccomp env.seccompFault (prog.take (prog.length % 2 ^ 16)))).1 e
                  | none => leave env.handler drop (syscall (env.onTrap env.trapRet.2) t (recSeccomp env) (setSeccomp env.seccompFault (prog.take (prog.length % 2 ^ 16)))).1 .ok).2
                ((World.put c i (inCall w t seed ⟨b, env, q, ps, v, .armed prog⟩)).run hs') := by
          intro prog t h3 h4
          have hn2 := armed_step (b := b) (env := env) (q := q) (ps := ps) (v := v) (t := t) (prog := prog)
          dsimp only at hn2
          split at hn2
          · rename_i e he
            exact leave_run h hk h3 (hal _ _ _ _ h3 hn2) ((hpid _ _ _ _ hn2).trans h4) hn2 env.handler drop P (fun x hx => .inr hx)
          · rename_i he
            exact leave_run h hk h3 (hal _ _ _ _ h3 hn2) ((hpid _ _ _ _ hn2).trans h4) hn2 env.handler drop P (fun x hx => .inr hx)
        exact last _ _ hal1 hpid1

end Spec
