import Verif.Spec.Handlers
import Verif.Props.TracedPledge
import Verif.Props.Reduce

/-!
# C113: signal handlers of a pledged thread
-/
set_option autoImplicit false

namespace Props
open Pledge Bpfvm Spec Kernel

theorem sigreturn_call (ip : BitVec 64) (junk : Fin 6 → BitVec 64) : IsCall (sigreturn ip junk) 15 := ⟨rfl, rfl⟩

/-- The verdict of a pledge on a call that is in StdIO and in no other promise. -/
theorem verdict_stdio (ids : Ids) (ps : List Promise) (v : BitVec 32) (d : SeccompData) (n : Nat) (hn : n ∈ runtimeCalls)
    (h : IsCall d n) : verdict ids ps v d = if .StdIO ∈ ps then 0x7fff0000 else v := by
  have ha := C75_runtime_needs_stdio ids ps d n hn h
  rcases verdict_three ids ps v d with ⟨h1, h2⟩ | ⟨h1, h2⟩ | ⟨h1, _⟩
  · rw [h2, if_pos (ha.1 h1)]
  · rw [h2, if_neg fun hs => not_both (ha.2 hs) h1]
  · exact absurd h.1 h1

/-- C113: returning from a handler fares as the library's own calls fare, and thus as pledging again. -/
theorem C113_like_pledging (t : Thread) (l : List Past) (hl : HasPledged t l) (env : Env) (ip : BitVec 64) (junk : Fin 6 → BitVec 64) :
    enter t (sigreturn ip junk) = enter t (recNnp env) := by
  unfold enter
  rw [runFilters_pledged hl, runFilters_pledged hl]
  congr 2
  apply List.map_congr_left
  intro p _
  rw [verdict_stdio _ _ _ _ 15 (by decide) (sigreturn_call ip junk), verdict_own p.ids p.ps _ env (recNnp env) (.inr (.inr (.inl rfl)))]
  rfl

/-- Not vacuous: a thread that pledged nothing with `Errno(1)`. -/
example := C113_like_pledging ({ thread0 with nnp := true, filters := [progOf ⟨100, 100⟩ [] (.Errno 1 : SeccompReturn).toU32] }) [⟨⟨100, 100⟩, [], .Errno 1⟩] ((hasPledged_iff _ _).2 rfl) calm 0 (fun _ => 0)

/-- C113: a handler can return exactly if every pledge of the thread has StdIO or a violation that lets calls pass. -/
theorem C113_can_return (t : Thread) (l : List Past) (hl : HasPledged t l) (hv : ∀ p ∈ l, PayloadFits p.v) (ip : BitVec 64)
    (junk : Fin 6 → BitVec 64) :
    enter t (sigreturn ip junk) = .executed ↔ ∀ p ∈ l, .StdIO ∈ p.ps ∨ Loose p.v := by
  have hverd := fun p : Past => verdict_stdio p.ids p.ps p.v.toU32 _ 15 (by decide) (sigreturn_call ip junk)
  unfold enter
  rw [outcome_executed]
  constructor
  · intro h p hp
    have hge : (0x7ffc0000 : Int) ≤ actionOnly (runFilters t.filters (sigreturn ip junk)) := by
      rcases h with h | h <;> rw [h] <;> decide
    have := (stack_ge hl _ _ (by decide)).1 hge p hp
    rw [hverd] at this
    by_cases hs : .StdIO ∈ p.ps
    · exact .inl hs
    · rw [if_neg hs] at this
      rcases kinds (hv p hp) with h | ⟨m, h⟩ | h
      · have := action_firm h
        have e : TR = 2146435072 := rfl
        omega
      · have := (action_trace h).1
        have e : TR = 2146435072 := rfl
        omega
      · exact .inr h
  · intro h
    rw [runFilters_pledged hl]
    rcases combine_mem 0x7fff0000#32 (l.map fun p => verdict p.ids p.ps p.v.toU32 (sigreturn ip junk)) with hm | hm
    · rw [hm]; right; decide
    · obtain ⟨p, hp, he⟩ := List.mem_map.1 hm
      rw [← he, hverd]
      rcases h p hp with hs | hs
      · rw [if_pos hs]; right; decide
      · split
        · right; decide
        · rcases hs with hs | hs <;> rw [hs]
          · left; decide
          · right; decide

/-- Not vacuous: a thread that pledged StdIO. -/
example := C113_can_return ({ thread0 with nnp := true, filters := [progOf ⟨100, 100⟩ [.StdIO] (.KillProcess : SeccompReturn).toU32] }) [⟨⟨100, 100⟩, [.StdIO], .KillProcess⟩] ((hasPledged_iff _ _).2 rfl) (by simp [PayloadFits]) 0 (fun _ => 0)

theorem verdict_only_stdio (ids : Ids) (ps : List Promise) (v : BitVec 32) (d : SeccompData) (n : Nat)
    (hn : n ∈ [7, 35, 202, 230, 219]) (h : IsCall d n) : verdict ids ps v d = if .StdIO ∈ ps then 0x7fff0000 else v := by
  have ha : Allows ids ps d ↔ .StdIO ∈ ps := by
    simp only [List.mem_cons, List.not_mem_nil, or_false] at hn
    rcases hn with rfl | rfl | rfl | rfl | rfl <;>
      (rw [allows_plain h [.StdIO] (by decide +kernel) (by decide) (by decide)]; simp)
  rcases verdict_three ids ps v d with ⟨h1, h2⟩ | ⟨h1, h2⟩ | ⟨h1, _⟩
  · rw [h2, if_pos (ha.1 h1)]
  · rw [h2, if_neg fun hs => not_both (ha.2 hs) h1]
  · exact absurd h.1 h1

/-- C113: the calls that the kernel resumes by restart_syscall (219) if a signal interrupts them and no handler runs, that is poll (7),
nanosleep (35), futex (202) and clock_nanosleep (230): resuming has the fate that the call has itself. -/
theorem C113_restart (t : Thread) (l : List Past) (hl : HasPledged t l) (d d' : SeccompData) (n : Nat) (hn : n ∈ [7, 35, 202, 230])
    (hd : IsCall d n) (hd' : IsCall d' 219) : enter t d' = enter t d := by
  unfold enter
  rw [runFilters_pledged hl, runFilters_pledged hl]
  congr 2
  apply List.map_congr_left
  intro p _
  rw [verdict_only_stdio _ _ _ d' 219 (by decide) hd', verdict_only_stdio _ _ _ d n (by simp at hn ⊢; omega) hd]

/-- Not vacuous: nanosleep, resumed after a signal. -/
example := C113_restart ({ thread0 with nnp := true, filters := [progOf ⟨100, 100⟩ [.StdIO] (.KillProcess : SeccompReturn).toU32] }) [⟨⟨100, 100⟩, [.StdIO], .KillProcess⟩] ((hasPledged_iff _ _).2 rfl) (mkCall 35 [0, 0]) (mkCall 219 []) 35 (by decide) ⟨rfl, rfl⟩ ⟨rfl, rfl⟩

/-- What is executed is permitted by each firm pledge, whatever other filters there are. -/
theorem among_allows {p : Past} {t : Thread} (h : Among p t) (hf : Firm p.v) {d : SeccompData} (he : enter t d = .executed) :
    Allows p.ids p.ps d := by
  obtain ⟨prog, hp, b, hb⟩ := h
  rw [promisesToProg_eq] at hb
  cases hb
  have h1 : (0x7ffc0000 : Int) ≤ actionOnly (runFilters t.filters d) := by
    rcases (outcome_executed _).1 he with h | h <;> rw [h] <;> decide
  rw [runFilters_eq] at h1
  have h2 := (combine_le 0x7fff0000#32 (t.filters.map fun f => cur f d)).2 _ (List.mem_map_of_mem hp)
  rw [cur_progOf] at h2
  have e : TR = 2146435072 := rfl
  rcases verdict_three p.ids p.ps p.v.toU32 d with ⟨h, _⟩ | ⟨_, h⟩ | ⟨_, h⟩
  · exact h
  · rw [h] at h2
    have := action_firm hf
    omega
  · rw [h] at h2
    have : actionOnly (0x80000000 : BitVec 32) = -2147483648 := by decide
    omega

theorem among_no_mask {p : Past} {t : Thread} (h : Among p t) (hf : Firm p.v) (hs : .StdIO ∉ p.ps) {d : SeccompData}
    (he : enter t d = .executed) : setsMask d = false := by
  have ha := among_allows h hf he
  have h1 : d.arch = X86_64 := ((allows_iff _ _ _).1 ha).1
  unfold setsMask
  simp only [Bool.or_eq_false_iff, bne_eq_false_iff_eq, decide_eq_false_iff_not, beq_eq_false_iff_ne, ne_eq]
  refine ⟨⟨⟨h1, ?_⟩, ?_⟩, ?_⟩
  · intro hge
    exact not_both ha (C04_no_large_number _ _ d h1 (by have : 0x40000000 ≤ d.nr.toNat := hge; omega))
  · intro hn
    exact hs ((C75_runtime_needs_stdio _ _ d 14 (by decide) ⟨h1, by rw [hn]; rfl⟩).1 ha)
  · intro hn
    exact hs ((C75_runtime_needs_stdio _ _ d 15 (by decide) ⟨h1, by rw [hn]; rfl⟩).1 ha)

theorem among_return {p : Past} {t : Thread} (h : Among p t) (hf : Firm p.v) (hs : .StdIO ∉ p.ps) (ip : BitVec 64)
    (junk : Fin 6 → BitVec 64) : enter t (sigreturn ip junk) ≠ .executed := by
  intro he
  exact hs ((C75_runtime_needs_stdio _ _ _ 15 (by decide) (sigreturn_call ip junk)).1 (among_allows h hf he))

/-- One step of a thread with a firm pledge that lacks StdIO. -/
theorem minded_step {p : Past} (hf : Firm p.v) (hs : .StdIO ∉ p.ps) (s : Minded) (h : Among p s.thread) (x : Doing) :
    Among p (s.step x).thread ∧ (s.blocked = true → (s.step x).blocked = true) ∧
    (∀ ip junk dp, x = .ret ip junk dp → s.frames <:+ (s.step x).frames) := by
  unfold Minded.step
  split
  · exact ⟨h, id, fun _ _ _ _ => List.suffix_refl _⟩
  · have hsig : ∀ dp, Among p (s.sigsys dp).thread ∧ (s.blocked = true → (s.sigsys dp).blocked = true) ∧
        s.frames <:+ (s.sigsys dp).frames := by
      intro dp
      unfold Minded.sigsys
      split
      · rename_i hc
        refine ⟨h, fun hb => ?_, List.suffix_cons _ _⟩
        rw [hc.2] at hb; cases hb
      · exact ⟨h, id, List.suffix_refl _⟩
    cases x with
    | call d dp mask more =>
      refine ⟨?_, ?_, fun _ _ _ h => nomatch h⟩
      · simp only
        split
        · obtain ⟨prog, hp, hb⟩ := h
          exact ⟨prog, List.mem_append_right _ hp, hb⟩
        · exact h
        · exact (hsig dp).1
        · exact h
      · intro hb
        simp only
        split
        · rename_i he
          simp [among_no_mask h hf hs he, hb]
        · exact hb
        · exact (hsig dp).2.1 hb
        · exact hb
    | signal hides => exact ⟨h, fun hb => by simp [hb], fun _ _ _ h => nomatch h⟩
    | ret ip junk dp =>
      have hr := among_return h hf hs ip junk
      simp only
      cases hfr : s.frames with
      | nil => exact ⟨h, id, fun _ _ _ _ => by rw [hfr]; exact List.suffix_refl _⟩
      | cons x xs =>
        simp only
        split
        · rename_i he; exact absurd he hr
        · exact ⟨h, id, fun _ _ _ _ => by simp⟩
        · have := hsig dp
          exact ⟨this.1, this.2.1, fun _ _ _ _ => by rw [← hfr]; exact this.2.2⟩
        · exact ⟨h, id, fun _ _ _ _ => by simp⟩
    | jump n => exact ⟨h, id, fun _ _ _ h => nomatch h⟩

theorem minded_run {p : Past} (hf : Firm p.v) (hs : .StdIO ∉ p.ps) (xs : List Doing) (s : Minded) (h : Among p s.thread) :
    Among p (s.run xs).thread ∧ (s.blocked = true → (s.run xs).blocked = true) := by
  induction xs generalizing s with
  | nil => exact ⟨h, id⟩
  | cons x xs ih =>
    have h1 := minded_step hf hs s h x
    have h2 := ih (s.step x) h1.1
    exact ⟨h2.1, fun hb => h2.2 (h1.2.1 hb)⟩

/-- C113: from a pledge on that lacks StdIO and is not lax, no handler returns, and SIGSYS stays blocked once it is blocked. -/
theorem C113_no_return (p : Past) (hf : Firm p.v) (hs : .StdIO ∉ p.ps) (s : Minded) (h : Among p s.thread) (xs : List Doing) :
    (s.blocked = true → (s.run xs).blocked = true) ∧
    ∀ ip junk dp, (s.run xs).frames <:+ ((s.run xs).step (.ret ip junk dp)).frames := by
  have h1 := minded_run hf hs xs s h
  exact ⟨h1.2, fun ip junk dp => (minded_step hf hs _ h1.1 _).2.2 ip junk dp rfl⟩

/-- C113: such a thread survives at most one trapped call, however its handlers are left, unless SIGSYS has a handler with SA_NODEFER. -/
theorem C113_once (p : Past) (hf : Firm p.v) (hs : .StdIO ∉ p.ps) (s : Minded) (h : Among p s.thread) (xs : List Doing)
    (hn : NoNodefer xs) : survivedTraps s xs ≤ if s.blocked then 0 else 1 := by
  induction xs generalizing s with
  | nil => simp [survivedTraps]
  | cons x xs ih =>
    have h1 := minded_step hf hs s h x
    have h2 := ih (s.step x) h1.1 (fun y hy => hn y (List.mem_cons_of_mem _ hy))
    have hx := hn x (List.mem_cons_self ..)
    unfold survivedTraps
    by_cases hc : (s.thread.alive && !s.lost && Traps s x && (s.step x).thread.alive) = true
    · rw [if_pos hc]
      simp only [Bool.and_eq_true, Bool.not_eq_true'] at hc
      obtain ⟨⟨⟨ha, hlost⟩, htr⟩, hal⟩ := hc
      have hsig : ∀ dp, dp.nodefer = false → (s.sigsys dp).thread.alive = true → s.blocked = false ∧ (s.sigsys dp).blocked = true := by
        intro dp hdp hal
        unfold Minded.sigsys at hal ⊢
        split at hal
        · rename_i hc
          rw [if_pos hc]
          exact ⟨hc.2, by simp [hdp]⟩
        · cases hal
      have hstep : s.blocked = false ∧ (s.step x).blocked = true := by
        have hno : ¬ (s.thread.alive = false ∨ s.lost = true) := by simp [ha, hlost]
        unfold Minded.step at hal ⊢
        rw [if_neg hno] at hal ⊢
        cases x with
        | call d dp mask more =>
          simp only [Traps, decide_eq_true_eq] at htr
          simp only [htr] at hal ⊢
          exact hsig dp hx hal
        | ret ip junk dp =>
          simp only [Traps, Bool.and_eq_true, decide_eq_true_eq] at htr
          simp only [htr.1] at hal ⊢
          cases hfr : s.frames with
          | nil => simp [hfr] at htr
          | cons y ys =>
            simp only [hfr] at hal ⊢
            exact hsig dp hx hal
        | signal hides => simp [Traps] at htr
        | jump n => simp [Traps] at htr
      rw [hstep.2] at h2
      rw [hstep.1]
      simp only [if_true, Bool.false_eq_true, if_false] at h2 ⊢
      omega
    · rw [if_neg hc]
      by_cases hb : s.blocked = true
      · rw [h1.2.1 hb] at h2
        rw [hb]
        simp only [if_true] at h2 ⊢
        omega
      · rw [if_neg hb]
        split at h2 <;> omega

/-- C113: a handler of SIGSYS that returns while rt_sigreturn is trapped too dies in returning. -/
theorem C113_return_kills (s : Minded) (ha : s.thread.alive = true) (hl : s.lost = false) (d : SeccompData) (dp dp' : Disposition)
    (hd : enter s.thread d = .trap) (hn : dp.nodefer = false) (mask : Option Bool) (more : List Prog) (ip : BitVec 64)
    (junk : Fin 6 → BitVec 64) (hr : enter s.thread (sigreturn ip junk) = .trap) :
    (s.run [.call d dp mask more, .ret ip junk dp']).thread.alive = false := by
  have hno : ¬ (s.thread.alive = false ∨ s.lost = true) := by simp [ha, hl]
  have h1 : s.step (.call d dp mask more) = s.sigsys dp := by
    unfold Minded.step
    rw [if_neg hno]
    simp only [hd]
  have h2 : s.run [.call d dp mask more, .ret ip junk dp'] = (s.sigsys dp).step (.ret ip junk dp') := by
    rw [← h1]; rfl
  rw [h2]
  unfold Minded.sigsys
  split
  · unfold Minded.step
    simp [ha, hl, hr, hn, Minded.sigsys]
  · simp [Minded.step]

/-- C113: if every pledge has StdIO or lets calls pass, handlers return, and a thread survives any number of trapped calls: after each
it is as it was before. -/
theorem C113_many (s : Minded) (ha : s.thread.alive = true) (hl : s.lost = false) (hb : s.blocked = false) (l : List Past)
    (hp : HasPledged s.thread l) (hv : ∀ p ∈ l, PayloadFits p.v) (hs : ∀ p ∈ l, .StdIO ∈ p.ps ∨ Loose p.v) (dp dp' : Disposition)
    (hh : dp.handler = true) (ip : BitVec 64) (junk : Fin 6 → BitVec 64) (ds : List SeccompData)
    (hd : ∀ d ∈ ds, enter s.thread d = .trap) :
    s.run (ds.flatMap fun d => [.call d dp none [], .ret ip junk dp']) = s ∧
    survivedTraps s (ds.flatMap fun d => [.call d dp none [], .ret ip junk dp']) = ds.length := by
  have hr := (C113_can_return s.thread l hp hv ip junk).2 hs
  have hno : ¬ (s.thread.alive = false ∨ s.lost = true) := by simp [ha, hl]
  have h1 : ∀ d ∈ ds, s.step (.call d dp none []) = { s with blocked := !dp.nodefer, frames := false :: s.frames } := by
    intro d h
    unfold Minded.step
    rw [if_neg hno]
    simp only [hd d h, Minded.sigsys]
    rw [if_pos ⟨hh, hb⟩, hb]
  have h2 : Minded.step { s with blocked := !dp.nodefer, frames := false :: s.frames } (.ret ip junk dp') = s := by
    unfold Minded.step
    rw [if_neg (show ¬ (({ s with blocked := !dp.nodefer, frames := false :: s.frames } : Minded).thread.alive = false ∨ _) from hno)]
    simp only [hr, ← hb]
  induction ds with
  | nil => exact ⟨rfl, rfl⟩
  | cons d ds ih =>
    have ih := ih (fun d h => hd d (List.mem_cons_of_mem _ h)) (fun d h => h1 d (List.mem_cons_of_mem _ h))
    have h1 := h1 d (List.mem_cons_self ..)
    have hd := hd d (List.mem_cons_self ..)
    refine ⟨?_, ?_⟩
    · rw [List.flatMap_cons]
      unfold Minded.run at ih ⊢
      rw [List.foldl_append, List.foldl_cons, List.foldl_cons, List.foldl_nil, h1, h2]
      exact ih.1
    · rw [List.flatMap_cons, List.cons_append, List.cons_append, List.nil_append]
      unfold survivedTraps
      rw [h1]
      unfold survivedTraps
      rw [h2, ih.2]
      simp [Traps, ha, hl, hd, hr]
      omega

/-- Not vacuous: RPath alone, violation Trap. mkdir is trapped; the handler jumps out of it; the second mkdir kills. The first handler
could not have returned: that would have killed as well. -/
example :
    let p : Past := ⟨⟨100, 100⟩, [.RPath], .Trap⟩
    let s : Minded := ⟨{ thread0 with filters := [progOf ⟨100, 100⟩ [.RPath] 0x30000] }, false, [], false⟩
    let mkdir : Doing := .call (mkCall 83 []) ⟨true, false⟩ none []
    Among p s.thread ∧ survivedTraps s [mkdir, .jump 1, mkdir] = 1 ∧ (s.run [mkdir, .jump 1]).thread.alive = true ∧
    (s.run [mkdir, .jump 1, mkdir]).thread.alive = false ∧ (s.run [mkdir, .ret 0 (fun _ => 0) ⟨true, false⟩]).thread.alive = false := by
  intro p s mkdir
  have hl : HasPledged s.thread [p] := (hasPledged_iff _ _).2 rfl
  have hm : enter s.thread (mkCall 83 []) = .trap := by
    unfold enter
    rw [runFilters_pledged hl]
    simp only [List.map_cons, List.map_nil, p]
    rcases verdict_three ⟨100, 100⟩ [.RPath] (SeccompReturn.Trap).toU32 (mkCall 83 []) with ⟨h, _⟩ | ⟨_, h⟩ | ⟨h, _⟩
    · rw [allows_plain ⟨rfl, rfl⟩ [.CPath] (by decide +kernel) (by decide) (by decide)] at h
      exact absurd h (by decide)
    · rw [h]; decide
    · exact absurd rfl h
  have hr : enter s.thread (sigreturn 0 fun _ => 0) = .trap := by
    unfold enter
    rw [runFilters_pledged hl]
    simp only [List.map_cons, List.map_nil, p]
    rw [verdict_stdio _ _ _ _ 15 (by decide) (sigreturn_call 0 fun _ => 0)]
    decide
  have h1 : s.step mkdir = ⟨s.thread, true, [false], false⟩ := by
    simp only [Minded.step, mkdir, hm]; rfl
  have h2 : Minded.step ⟨s.thread, true, [], false⟩ mkdir = ⟨{ s.thread with alive := false }, true, [], false⟩ := by
    simp only [Minded.step, mkdir, hm]; rfl
  have h3 : Minded.step ⟨s.thread, true, [false], false⟩ (.jump 1) = ⟨s.thread, true, [], false⟩ := rfl
  refine ⟨⟨_, List.mem_singleton.2 rfl, ⟨false⟩, promisesToProg_eq _ _ _ _⟩, ?_, ?_, ?_, ?_⟩
  · simp only [survivedTraps, h1, h2, h3]
    simp [Traps, mkdir, s, thread0]
    exact decide_eq_true hm
  · simp only [Minded.run, List.foldl_cons, List.foldl_nil, h1, h3]; rfl
  · simp only [Minded.run, List.foldl_cons, List.foldl_nil, h1, h2, h3]
  · exact C113_return_kills s rfl rfl _ _ _ hm rfl _ _ _ _ hr

/-- Not vacuous: StdIO, violation Trap; a hundred calls of mkdir. -/
example :
    let s : Minded := ⟨{ thread0 with filters := [progOf ⟨100, 100⟩ [.StdIO] 0x30000] }, false, [], false⟩
    survivedTraps s ((List.replicate 100 (mkCall 83 [])).flatMap fun d =>
      [.call d ⟨true, false⟩ none [], .ret 0 (fun _ => 0) ⟨true, false⟩]) = 100 := by
  intro s
  have hl : HasPledged s.thread [⟨⟨100, 100⟩, [.StdIO], .Trap⟩] := (hasPledged_iff _ _).2 rfl
  have hm : enter s.thread (mkCall 83 []) = .trap := by
    unfold enter
    rw [runFilters_pledged hl]
    simp only [List.map_cons, List.map_nil]
    rcases verdict_three ⟨100, 100⟩ [.StdIO] (SeccompReturn.Trap).toU32 (mkCall 83 []) with ⟨h, _⟩ | ⟨_, h⟩ | ⟨h, _⟩
    · rw [allows_plain ⟨rfl, rfl⟩ [.CPath] (by decide +kernel) (by decide) (by decide)] at h
      exact absurd h (by decide)
    · rw [h]; decide
    · exact absurd rfl h
  have := (C113_many s rfl rfl rfl _ hl (by intro p hp; cases List.mem_singleton.1 hp; trivial)
    (by intro p hp; cases List.mem_singleton.1 hp; exact .inl (by decide)) ⟨true, false⟩ ⟨true, false⟩ rfl 0 (fun _ => 0)
    (List.replicate 100 (mkCall 83 [])) (by intro d hd; rw [(List.mem_replicate.1 hd).2]; exact hm)).2
  rw [List.length_replicate] at this
  exact this

end Props
