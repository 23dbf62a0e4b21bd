import Verif.Spec.Trapped
import Verif.Props.Handlers
import Verif.Props.Plain

/-!
# C114: pledging with a handler of SIGSYS
-/
set_option autoImplicit false

namespace Props
open Pledge Bpfvm Spec Kernel

theorem syscallWatched_same (env : Env) (w : Watch) (k : Fin 4) (v : Int) (t : Thread) (b : Bool) (d : SeccompData)
    (body : Thread → Thread × Int) (h : enter t d ≠ .trap) :
    syscallWatched env w k v t b d body = ((syscall (env.onTrap v) t d body).1, b, some (syscall (env.onTrap v) t d body).2) := by
  unfold syscallWatched syscall
  cases ho : enter t d <;> first | exact absurd ho h | rfl

theorem askIdWatched_same (env : Env) (w : Watch) (k : Fin 4) (t : Thread) (b : Bool) (d : SeccompData) (real fail : BitVec 32)
    (h : enter t d ≠ .trap) : askIdWatched env w k t b d real fail =
      match askId env t d real fail with
      | .ok x => .ok (x, b)
      | .error o => .error (some o) := by
  unfold askIdWatched askId
  cases ho : enter t d <;> first | exact absurd ho h | rfl

/-- C114: a handler of SIGSYS has no influence unless the earlier filters trap the library's calls. -/
theorem C114_untrapped (b : Build) (env : Env) (w : Watch) (t : Thread) (l : List Past) (hl : HasPledged t l) (ps : List Promise)
    (v : SeccompReturn) (hu : enter t (recNnp env) ≠ .trap) :
    pledgeWatched b env w t ps v = ((pledgeOverride b env t ps v).1, some (pledgeOverride b env t ps v).2) := by
  have e1 : enter t (recGetpid env) ≠ .trap := by rw [enter_own hl env env _ (.inl rfl)]; exact hu
  have e2 : enter t (recGettid env) ≠ .trap := by rw [enter_own hl env env _ (.inr (.inl rfl))]; exact hu
  have e3 : enter t (recSeccomp env) ≠ .trap := by rw [enter_own hl env env _ (.inr (.inr (.inr rfl)))]; exact hu
  unfold pledgeWatched pledgeOverride
  have hids : askIdsWatched env w t ps = match askIds env t ps with
      | .ok ids => .ok (ids, w.blocked)
      | .error o => .error (some o) := by
    unfold askIdsWatched askIds
    cases asksIds ps with
    | false => rfl
    | true =>
      simp only [if_true, askIdWatched_same env w _ t _ _ _ _ e1]
      cases askId env t (recGetpid env) t.pid env.idFail.pid with
      | error o => rfl
      | ok pid =>
        simp only [askIdWatched_same env w _ t _ _ _ _ e2]
        cases askId env t (recGettid env) t.tid env.idFail.tid <;> rfl
  rw [hids]
  cases askIds env t ps with
  | error o => rfl
  | ok ids =>
    simp only [promisesToProg_eq, syscallWatched_same env w _ _ t _ _ _ hu]
    generalize hr : syscall (env.onTrap env.trapRet.1) t (recNnp env) (setNnp env.nnpFault) = r1
    have hf : r1.1.filters = t.filters := by
      rw [← hr]
      rcases syscall_filters (env.onTrap env.trapRet.1) t (recNnp env) (setNnp env.nnpFault) with h | h
      · rw [h]
      · rw [h]; unfold setNnp; split <;> rfl
    have e3' : enter r1.1 (recSeccomp env) ≠ .trap := by
      unfold enter at e3 ⊢
      rw [hf]; exact e3
    cases checkRet env.errno.1 r1.2 with
    | some e => rfl
    | none =>
      simp only [syscallWatched_same env w _ _ r1.1 _ _ _ e3']
      cases checkRet env.errno.2 _ <;> rfl

/-- C114, exactly: if the earlier filters trap the library's calls, the thread stays as it is, and the call ends as the handler has it. -/
theorem C114_trapped (b : Build) (env : Env) (w : Watch) (t : Thread) (l : List Past) (hl : HasPledged t l) (ps : List Promise)
    (v : SeccompReturn) (hu : enter t (recNnp env) = .trap) :
    pledgeWatched b env w t ps v = (t,
      let prctls := fun blocked => thenNext w env.handler 2 blocked fun blocked => thenCheck env.errno.1 env.trapRet.1
        (thenNext w env.handler 3 blocked fun _ => thenCheck env.errno.2 env.trapRet.2 (some .ok))
      if .StdIO ∈ ps then thenNext w env.handler 0 w.blocked fun blocked => thenNext w env.handler 1 blocked prctls
      else prctls w.blocked) := by
  have e1 : enter t (recGetpid env) = .trap := by rw [enter_own hl env env _ (.inl rfl)]; exact hu
  have e2 : enter t (recGettid env) = .trap := by rw [enter_own hl env env _ (.inr (.inl rfl))]; exact hu
  have e3 : enter t (recSeccomp env) = .trap := by rw [enter_own hl env env _ (.inr (.inr (.inr rfl)))]; exact hu
  have e4 : ∀ ip junk, enter t (sigreturn ip junk) = .trap := by intro ip junk; rw [C113_like_pledging t l hl env]; exact hu
  have haft : ∀ k blocked, w.after env k t blocked = if env.handler = false ∨ blocked = true then .died .trap else
      match w.how k with
      | .leaves => .never
      | .returns => if w.nodefer then .never else .died .trap
      | .resumes => .goesOn !w.nodefer := by
    intro k blocked
    unfold Watch.after afterTrap
    simp only [e4]
    split
    · rfl
    · cases w.how k <;> rfl
  have hnext : ∀ k blocked (f : Bool → Option PledgeRes),
      (match w.after env k t blocked with
        | .goesOn b' => (t, f b')
        | .died o => (t, some (.died o))
        | .never => (t, none)) = (t, thenNext w env.handler k blocked f) := by
    intro k blocked f
    rw [haft]
    unfold thenNext
    by_cases hc : env.handler = false ∨ blocked = true
    · simp only [if_pos hc]
    · simp only [if_neg hc]
      cases w.how k with
      | returns => cases w.nodefer <;> rfl
      | resumes => rfl
      | leaves => rfl
  have hsys : ∀ (k : Fin 4) (x : Int) (stale : Nat) (blocked : Bool) (d : SeccompData) (body : Thread → Thread × Int)
      (next : Thread → Bool → Thread × Option PledgeRes) (f : Bool → Option PledgeRes), enter t d = .trap → (∀ b', next t b' = (t, f b')) →
      (match syscallWatched env w k x t blocked d body with
        | (t1, _, none) => (t1, none)
        | (t1, b1, some r1) =>
          match checkRet stale r1 with
          | some e => (t1, some e)
          | none => next t1 b1) =
      (t, thenNext w env.handler k blocked fun b' => thenCheck stale x (f b')) := by
    intro k x stale blocked d body next f hd hn
    rw [← hnext]
    unfold syscallWatched
    simp only [hd]
    cases w.after env k t blocked with
    | goesOn b' =>
      simp only [checkRet_reported, thenCheck]
      cases reported stale x with
      | none => exact hn b'
      | some e => rfl
    | died o => rfl
    | never => rfl
  have hprctls : ∀ (ids : Ids) (b0 : Bool),
      (match promisesToProg b ids ps v with
        | .err e => (t, some (.err e))
        | .panic => (t, some .panic)
        | .ok prog =>
          let seen := prog.take (prog.length % 2 ^ 16)
          match syscallWatched env w 2 env.trapRet.1 t b0 (recNnp env) (setNnp env.nnpFault) with
          | (t1, _, none) => (t1, none)
          | (t1, b1, some r1) =>
            match checkRet env.errno.1 r1 with
            | some e => (t1, some e)
            | none =>
              match syscallWatched env w 3 env.trapRet.2 t1 b1 (recSeccomp env) (setSeccomp env.seccompFault seen) with
              | (t2, _, none) => (t2, none)
              | (t2, _, some r2) =>
                match checkRet env.errno.2 r2 with
                | some e => (t2, some e)
                | none => (t2, some .ok)) =
      (t, thenNext w env.handler 2 b0 fun blocked => thenCheck env.errno.1 env.trapRet.1
        (thenNext w env.handler 3 blocked fun _ => thenCheck env.errno.2 env.trapRet.2 (some .ok))) := by
    intro ids b0
    rw [promisesToProg_eq]
    refine hsys 2 _ _ _ _ _ _ _ hu fun b1 => ?_
    exact hsys 3 _ _ _ _ _ (fun t2 _ => (t2, some .ok)) (fun _ => some .ok) e3 fun _ => rfl
  unfold pledgeWatched askIdsWatched
  by_cases hs : .StdIO ∈ ps
  · rw [if_pos ((asksIds_iff ps).2 hs)]
    simp only [if_pos hs]
    unfold askIdWatched
    simp only [e1, e2]
    rw [← hnext]
    cases w.after env 0 t w.blocked with
    | died o => rfl
    | never => rfl
    | goesOn b0 =>
      simp only
      rw [← hnext]
      cases w.after env 1 t b0 with
      | died o => rfl
      | never => rfl
      | goesOn b1 => exact hprctls _ b1
  · rw [if_neg (fun h => hs ((asksIds_iff ps).1 h)), if_neg hs]
    exact hprctls _ w.blocked

/-- C114: a handler that returns does not get a trapped pledge through: the call ends in death, or, with SA_NODEFER, does not come back. -/
theorem C114_returning (b : Build) (env : Env) (w : Watch) (t : Thread) (l : List Past) (hl : HasPledged t l) (ps : List Promise)
    (v : SeccompReturn) (hu : enter t (recNnp env) = .trap) (hw : ∀ k, w.how k = .returns) :
    pledgeWatched b env w t ps v =
      (t, if env.handler = true ∧ w.blocked = false ∧ w.nodefer = true then none else some (.died .trap)) := by
  rw [C114_trapped b env w t l hl ps v hu]
  have key : ∀ k f, thenNext w env.handler k w.blocked f =
      if env.handler = true ∧ w.blocked = false ∧ w.nodefer = true then none else some (.died .trap) := by
    intro k f
    unfold thenNext
    rw [hw k]
    cases env.handler <;> cases w.blocked <;> cases w.nodefer <;> rfl
  simp only [key]
  split <;> rfl

/-- C114: Ok without effect after a trap needs a handler with SA_NODEFER that, after each call, restores the registers by itself and
makes both calls of prctl look successful. -/
theorem C114_ok_without_effect (b : Build) (env : Env) (w : Watch) (t : Thread) (l : List Past) (hl : HasPledged t l)
    (ps : List Promise) (v : SeccompReturn) :
    ((pledgeWatched b env w t ps v).2 = some .ok ∧ (pledgeWatched b env w t ps v).1.filters = t.filters) ↔
    (enter t (recNnp env) = .errno 0 ∨
      enter t (recNnp env) = .trap ∧ env.handler = true ∧ w.blocked = false ∧ w.nodefer = true ∧
        (∀ k, (k = 2 ∨ k = 3 ∨ .StdIO ∈ ps) → w.how k = .resumes) ∧ env.trapRet.1 % 2 ^ 32 = 0 ∧ env.trapRet.2 % 2 ^ 32 = 0) := by
  by_cases hu : enter t (recNnp env) = .trap
  · rw [C114_trapped b env w t l hl ps v hu]
    have hrep : ∀ s x, reported s x = none ↔ x % 2 ^ 32 = 0 := by
      intro s x
      unfold reported
      repeat' split
      all_goals simp_all
    have key : ∀ k blocked f, thenNext w env.handler k blocked f = some .ok ↔
        env.handler = true ∧ blocked = false ∧ w.how k = .resumes ∧ f (!w.nodefer) = some .ok := by
      intro k blocked f
      unfold thenNext
      cases env.handler <;> cases blocked <;> cases w.how k <;> cases w.nodefer <;> simp
    have kc : ∀ s x n, thenCheck s x n = some .ok ↔ x % 2 ^ 32 = 0 ∧ n = some .ok := by
      intro s x n
      unfold thenCheck
      rw [← hrep s x]
      cases reported s x <;> simp
    simp only [hu, true_and, and_true, reduceCtorEq, false_or]
    by_cases hs : .StdIO ∈ ps
    · simp only [if_pos hs]
      simp only [key, kc, hs, or_true, true_implies]
      constructor
      · rintro ⟨h1, h2, h3, _, h4, h5, _, _, h6, h7, _, _, h8, h9, _⟩
        refine ⟨h1, h2, by simpa using h4, fun k => ?_, h7, h9⟩
        match k with
        | 0 => exact h3
        | 1 => exact h5
        | 2 => exact h6
        | 3 => exact h8
      · rintro ⟨h1, h2, h3, h4, h5, h6⟩
        simp [h1, h2, h3, h4]
        exact ⟨h5, h6⟩
    · simp only [if_neg hs]
      simp only [key, kc, hs, or_false]
      constructor
      · rintro ⟨h1, h2, h6, h7, _, h4, h8, h9, _⟩
        refine ⟨h1, h2, by simpa using h4, fun k => ?_, h7, h9⟩
        rintro (rfl | rfl)
        · exact h6
        · exact h8
      · rintro ⟨h1, h2, h3, h4, h5, h6⟩
        simp [h1, h2, h3, h4]
        exact ⟨h5, h6⟩
  · rw [C114_untrapped b env w t l hl ps v hu]
    have := C64_ok_without_effect b env t ps v l hl
    simp only [hu, false_and, or_false, Option.some.injEq] at this ⊢
    exact this

/-- C114: if the handlers of SIGSYS return as handlers do, and no earlier pledge without StdIO has the violation Errno(0), then Ok means
that the filter is there. -/
theorem C114_enforced (b : Build) (env : Env) (w : Watch) (t : Thread) (l : List Past) (hl : HasPledged t l) (ps : List Promise)
    (v : SeccompReturn) (hw : ∀ k, w.how k = .returns) (hv : ∀ p ∈ l, .StdIO ∈ p.ps ∨ outcome p.v.toU32 ≠ .errno 0)
    (hok : (pledgeWatched b env w t ps v).2 = some .ok) :
    ∃ prog, promisesToProg b ⟨t.pid, t.tid⟩ ps v = .ok prog ∧ (pledgeWatched b env w t ps v).1.filters = prog :: t.filters ∧
      (pledgeWatched b env w t ps v).1.nnp = true := by
  by_cases hu : enter t (recNnp env) = .trap
  · rw [C114_returning b env w t l hl ps v hu hw] at hok
    simp only at hok
    split at hok <;> cases hok
  · rw [C114_untrapped b env w t l hl ps v hu] at hok ⊢
    simp only [Option.some.injEq] at hok
    by_cases he : enter t (recNnp env) = .executed
    · refine ⟨_, promisesToProg_eq _ _ _ _, ?_⟩
      rw [pledge_executed b env t ps v l hl he] at hok ⊢
      revert hok
      repeat' split
      all_goals simp
    · rw [C64_refused b env t ps v l hl he] at hok
      rcases own_outcome env t l hl with h | ⟨p, hp, hs, h⟩
      · exact absurd h he
      · have h0 := (hv p hp).resolve_left hs
        rw [← h] at h0
        simp only at hok
        revert hok
        cases ho : enter t (recNnp env) with
        | executed => exact absurd ho he
        | errno n =>
          cases n with
          | zero => exact absurd ho h0
          | succ n => simp [refusedResult]
        | trap => exact absurd ho hu
        | killThread => simp [refusedResult]
        | killProcess => simp [refusedResult]

/-- C114: without SA_NODEFER the second trapped call kills, so a trapped pledge never returns Ok; it can return the error that the handler
makes up for the first prctl, and only if the new promises do not have StdIO. -/
theorem C114_masked (b : Build) (env : Env) (w : Watch) (t : Thread) (l : List Past) (hl : HasPledged t l) (ps : List Promise)
    (v : SeccompReturn) (hu : enter t (recNnp env) = .trap) (hn : w.nodefer = false) :
    (pledgeWatched b env w t ps v).1 = t ∧
    ((pledgeWatched b env w t ps v).2 = some (.died .trap) ∨ (pledgeWatched b env w t ps v).2 = none ∨
      .StdIO ∉ ps ∧ ∃ e, reported env.errno.1 env.trapRet.1 = some e ∧ (pledgeWatched b env w t ps v).2 = some (.err (.SysErr e))) := by
  rw [C114_trapped b env w t l hl ps v hu]
  refine ⟨rfl, ?_⟩
  have kt : ∀ k f, thenNext w env.handler k true f = some (.died .trap) := by intro k f; simp [thenNext]
  have kf : ∀ k blocked f, thenNext w env.handler k blocked f = some (.died .trap) ∨ thenNext w env.handler k blocked f = none ∨
      thenNext w env.handler k blocked f = f true := by
    intro k blocked f
    unfold thenNext
    rw [hn]
    cases env.handler <;> cases blocked <;> cases w.how k <;> simp
  by_cases hs : .StdIO ∈ ps
  · simp only [if_pos hs]
    rcases kf 0 w.blocked _ with h | h | h
    · exact .inl h
    · exact .inr (.inl h)
    · exact .inl (h.trans (kt _ _))
  · simp only [if_neg hs]
    rcases kf 2 w.blocked _ with h | h | h
    · exact .inl h
    · exact .inr (.inl h)
    · rw [h]
      unfold thenCheck
      cases hr : reported env.errno.1 env.trapRet.1 with
      | none => simp only [kt]; exact .inl trivial
      | some e => exact .inr (.inr ⟨hs, e, rfl, rfl⟩)

/-- C114: the account of `Model/Pledge.lean` is the case of a handler with SA_NODEFER that restores the registers itself. -/
theorem C114_agrees (b : Build) (env : Env) (w : Watch) (t : Thread) (l : List Past) (hl : HasPledged t l) (ps : List Promise)
    (v : SeccompReturn) (hb : w.blocked = false) (hn : w.nodefer = true) (hw : ∀ k, w.how k = .resumes) :
    pledgeWatched b env w t ps v = ((pledgeOverride b env t ps v).1, some (pledgeOverride b env t ps v).2) := by
  by_cases hu : enter t (recNnp env) = .trap
  · rw [C114_trapped b env w t l hl ps v hu, C64_refused b env t ps v l hl (by rw [hu]; simp), hu]
    simp only [thenNext, hw, hb, hn, thenCheck, refusedResult]
    cases env.handler <;> cases reported env.errno.1 env.trapRet.1 <;> cases reported env.errno.2 env.trapRet.2 <;> simp
  · exact C114_untrapped b env w t l hl ps v hu

/-- C114: what the library meets is what `Env/Handlers.lean` says about a thread that makes a trapped call whose handler then ends. -/
theorem C114_machine (dp : Disposition) (ip : BitVec 64) (junk : Fin 6 → BitVec 64) (t : Thread) (ha : t.alive = true) (blocked : Bool)
    (d : SeccompData) (hd : enter t d = .trap) (mask : Option Bool) (more : List Prog) :
    (∀ b', afterTrap dp .returns (sigreturn ip junk) t blocked = .goesOn b' ↔
      Minded.run ⟨t, blocked, [], false⟩ [.call d dp mask more, .ret ip junk dp] = ⟨t, b', [], false⟩) ∧
    ((∃ o, afterTrap dp .returns (sigreturn ip junk) t blocked = .died o) ↔
      (Minded.run ⟨t, blocked, [], false⟩ [.call d dp mask more, .ret ip junk dp]).thread.alive = false) ∧
    (∀ b', afterTrap dp .resumes (sigreturn ip junk) t blocked = .goesOn b' ↔
      Minded.run ⟨t, blocked, [], false⟩ [.call d dp mask more, .jump 1] = ⟨t, b', [], false⟩) := by
  have hx : ({ t with alive := false } : Thread) ≠ t := by
    intro h
    have := congrArg Thread.alive h
    rw [ha] at this
    cases this
  simp only [Minded.run, List.foldl_cons, List.foldl_nil, Minded.step, ha, hd, Minded.sigsys, afterTrap]
  cases hh : dp.handler <;> cases blocked <;> cases hn : dp.nodefer <;> cases ho : enter t (sigreturn ip junk) <;>
    simp [ha, ho, hx]

/-- Not vacuous: after RPath alone with violation Trap the next pledge kills if the handler returns, and looks successful if the handler
has SA_NODEFER, restores the registers itself and leaves 0. -/
example (b : Build) (ps : List Promise) (v : SeccompReturn) :
    let t : Thread := { thread0 with nnp := true, filters := [progOf ⟨100, 100⟩ [.RPath] 0x30000] }
    let env : Env := { calm with handler := true, trapRet := (0, 0) }
    pledgeWatched b env ⟨false, false, fun _ => .returns, fun _ => 0, fun _ _ => 0⟩ t ps v = (t, some (.died .trap)) ∧
    (pledgeWatched b env ⟨false, true, fun _ => .resumes, fun _ => 0, fun _ _ => 0⟩ t ps v).2 = some .ok := by
  intro t env
  have hl : HasPledged t [⟨⟨100, 100⟩, [.RPath], .Trap⟩] := (hasPledged_iff _ _).2 rfl
  have he : enter t (recNnp env) = .trap := by
    unfold enter
    rw [runFilters_pledged hl]
    simp only [List.map_cons, List.map_nil]
    rw [verdict_own _ _ _ env _ (.inr (.inr (.inl rfl)))]
    decide
  refine ⟨C114_returning b env _ t _ hl ps v he fun _ => rfl, ?_⟩
  exact ((C114_ok_without_effect b env _ t _ hl ps v).2 (.inr ⟨he, rfl, rfl, rfl, fun _ _ => rfl, rfl, rfl⟩)).1

end Props
