import Verif.Model.Alloc
import Verif.Props.Ids
import Verif.Props.Reduce

/-!
# C90, C91: the memory allocator's system calls inside a pledge
-/
set_option autoImplicit false

namespace Props
open Bpfvm Kernel Pledge Spec

/-- The allocator goes on after this call, made by thread `t`. -/
def Served (handler : Bool) (t : Thread) (c : MemCall) : Prop :=
  match enter t c.d with
  | .executed => c.executed = .goesOn
  | .errno _ => c.refused = .goesOn
  | .trap => handler = true ∧ c.refused = .goesOn
  | _ => False

/-- The end has nothing to do with the library's own code. -/
def Foreign (e : Ending) : Prop := e = .aborted ∨ ∃ o, e = .died o

theorem manage_none_iff (handler : Bool) (t : Thread) (cs : List MemCall) :
    manage handler t cs = none ↔ ∀ c ∈ cs, Served handler t c := by
  induction cs with
  | nil => simp [manage]
  | cons c cs ih =>
    rw [List.forall_mem_cons, ← ih, manage]
    unfold Served
    cases enter t c.d with
    | executed => cases c.executed <;> simp
    | errno n => cases c.refused <;> simp
    | trap => cases handler <;> cases c.refused <;> simp
    | killThread => simp
    | killProcess => simp

theorem manage_some (handler : Bool) (t : Thread) (cs : List MemCall) (e : Ending) (h : manage handler t cs = some e) : Foreign e := by
  induction cs with
  | nil => cases h
  | cons c cs ih =>
    unfold manage at h
    have hr : ∀ r : Reaction, (match r with | .goesOn => manage handler t cs | .givesUp => some Ending.aborted) = some e → Foreign e := by
      intro r h
      cases r with
      | goesOn => exact ih h
      | givesUp => injection h with h; exact .inl h.symm
    cases hd : enter t c.d with
    | executed => rw [hd] at h; exact hr _ h
    | errno n => rw [hd] at h; exact hr _ h
    | trap =>
      rw [hd] at h
      cases handler with
      | true => exact hr _ h
      | false => injection h with h; exact .inr ⟨_, h.symm⟩
    | killThread => rw [hd] at h; injection h with h; exact .inr ⟨_, h.symm⟩
    | killProcess => rw [hd] at h; injection h with h; exact .inr ⟨_, h.symm⟩

/-- What the generator with the allocator's calls gives if the allocator is always served. -/
def plain (r : Except Outcome (Res PledgeError (List (List SockFilter)))) : Except Ending (Res PledgeError (List (List SockFilter))) :=
  match r with
  | .error o => .error (.own (.died o))
  | .ok r => .ok r

theorem fragsMem_cases (b : Build) (handler : Bool) (t : Thread) (q : Nat → Query) (mem : Nat → List MemCall) (k : Nat)
    (fs : List Filtered) :
    (∃ e, fragsMem b handler t q mem k fs = .error e ∧ Foreign e) ∨
    fragsMem b handler t q mem k fs = plain (fragsBy b handler t q k fs).2 := by
  induction fs generalizing k with
  | nil =>
    unfold fragsMem
    cases h : manage handler t (mem k) with
    | some e => exact .inl ⟨e, rfl, manage_some _ _ _ _ h⟩
    | none => exact .inr rfl
  | cons f fs ih =>
    unfold fragsMem fragsBy
    cases h : manage handler t (mem k) with
    | some e => exact .inl ⟨e, rfl, manage_some _ _ _ _ h⟩
    | none =>
      simp only
      obtain ⟨calls, r⟩ := fragBy b handler t (q k) f
      cases r with
      | error o => exact .inr rfl
      | ok r =>
        cases r with
        | err e => exact .inr rfl
        | panic => exact .inr rfl
        | ok code =>
          simp only
          rcases ih (k + 1) with ⟨e, h1, h2⟩ | h1
          · rw [h1]; exact .inl ⟨e, rfl, h2⟩
          · rw [h1]
            right
            obtain ⟨calls', r'⟩ := fragsBy b handler t q (k + 1) fs
            cases r' with
            | error o => rfl
            | ok r' => cases r' <;> rfl

theorem fragsMem_served (b : Build) (handler : Bool) (t : Thread) (q : Nat → Query) (mem : Nat → List MemCall)
    (hm : ∀ k, ∀ c ∈ mem k, Served handler t c) (k : Nat) (fs : List Filtered) :
    fragsMem b handler t q mem k fs = plain (fragsBy b handler t q k fs).2 := by
  induction fs generalizing k with
  | nil =>
    unfold fragsMem
    rw [(manage_none_iff _ _ _).2 (hm k)]
    rfl
  | cons f fs ih =>
    unfold fragsMem fragsBy
    rw [(manage_none_iff _ _ _).2 (hm k)]
    simp only
    obtain ⟨calls, r⟩ := fragBy b handler t (q k) f
    cases r with
    | error o => rfl
    | ok r =>
      cases r with
      | err e => rfl
      | panic => rfl
      | ok code =>
        simp only
        rw [ih (k + 1)]
        obtain ⟨calls', r'⟩ := fragsBy b handler t q (k + 1) fs
        cases r' with
        | error o => rfl
        | ok r' => cases r' <;> rfl

/-- The part behind the generator. -/
theorem pledgeMem_plain (b : Build) (env : Env) (q : Nat → Query) (mem : Nat → List MemCall) (drop : List MemCall) (t : Thread)
    (ps : List Promise) (v : SeccompReturn)
    (h : fragsMem b env.handler t q mem 0 (allFilters ps) = plain (fragsBy b env.handler t q 0 (allFilters ps)).2) :
    pledgeMem b env q mem drop t ps v =
      leave env.handler drop (pledgeCalls b env q t ps v).1 (pledgeCalls b env q t ps v).2.1 := by
  unfold pledgeMem pledgeCalls
  rw [mapM_filters]
  simp only
  rw [show ((Promise.Default :: ps).map filtersOf).flatten = allFilters ps from rfl, h]
  obtain ⟨calls, r⟩ := fragsBy b env.handler t q 0 (allFilters ps)
  cases r with
  | error o => rfl
  | ok r =>
    cases r with
    | err e => rfl
    | panic => rfl
    | ok codes =>
      simp only [plain, bpfHeader_eq, bpfFooter_eq]
      cases checkRet env.errno.1 (syscall (env.onTrap env.trapRet.1) t (recNnp env) (setNnp env.nnpFault)).2 with
      | some e => rfl
      | none =>
        simp only
        split <;> rename_i h2 <;> simp only [h2]

theorem pledgeMem_cases (b : Build) (env : Env) (q : Nat → Query) (mem : Nat → List MemCall) (drop : List MemCall) (t : Thread)
    (ps : List Promise) (v : SeccompReturn) :
    (∃ e, pledgeMem b env q mem drop t ps v = (t, e) ∧ Foreign e) ∨
    pledgeMem b env q mem drop t ps v =
      leave env.handler drop (pledgeCalls b env q t ps v).1 (pledgeCalls b env q t ps v).2.1 := by
  rcases fragsMem_cases b env.handler t q mem 0 (allFilters ps) with ⟨e, h1, h2⟩ | h
  · left
    refine ⟨e, ?_, h2⟩
    unfold pledgeMem
    rw [mapM_filters]
    simp only
    rw [show ((Promise.Default :: ps).map filtersOf).flatten = allFilters ps from rfl, h1]
  · exact .inr (pledgeMem_plain b env q mem drop t ps v h)

theorem leave_cases (handler : Bool) (drop : List MemCall) (t : Thread) (r : PledgeRes) :
    leave handler drop t r = (t, .own r) ∨ ∃ e, leave handler drop t r = (t, e) ∧ Foreign e := by
  unfold leave
  cases r with
  | died o => exact .inl rfl
  | ok | err | panic =>
    simp only
    cases h : manage handler t drop with
    | none => exact .inl rfl
    | some e => exact .inr ⟨e, rfl, manage_some _ _ _ _ h⟩

/-- C90: as long as the allocator is served, its calls change nothing: the effect and the result are those of the model without it. -/
theorem C90_served (b : Build) (env : Env) (q : Nat → Query) (mem : Nat → List MemCall) (drop : List MemCall) (t : Thread)
    (l : List Past) (hl : HasPledged t l) (ps : List Promise) (v : SeccompReturn)
    (hm : ∀ k, ∀ c ∈ mem k, Served env.handler t c)
    (hd : ∀ c ∈ drop, Served env.handler (pledgeOverride b env t ps v).1 c) :
    pledgeMem b env q mem drop t ps v = ((pledgeOverride b env t ps v).1, .own (pledgeOverride b env t ps v).2) := by
  rw [pledgeMem_plain b env q mem drop t ps v (fragsMem_served _ _ _ _ _ hm _ _),
    ← C78_as_if_asked_once b env q t l hl ps v]
  have h := C78_as_if_asked_once b env q t l hl ps v
  unfold leave
  rw [← h] at hd
  rw [(manage_none_iff _ _ _).2 hd]
  split
  · rename_i h1; rw [h1]
  · rfl

/-- C90: whatever calls the allocator makes and whatever becomes of them, if the call returns then with the result and the effect of
the model without it; otherwise the thread's filters and no_new_privs are those from before the pledge or those the pledge without the
allocator leaves. -/
theorem C90_whatever (b : Build) (env : Env) (q : Nat → Query) (mem : Nat → List MemCall) (drop : List MemCall) (t : Thread)
    (l : List Past) (hl : HasPledged t l) (ps : List Promise) (v : SeccompReturn) :
    (∀ r, (pledgeMem b env q mem drop t ps v).2 = .own r →
      pledgeOverride b env t ps v = ((pledgeMem b env q mem drop t ps v).1, r)) ∧
    ((pledgeMem b env q mem drop t ps v).1 = t ∨ (pledgeMem b env q mem drop t ps v).1 = (pledgeOverride b env t ps v).1) := by
  rw [← C78_as_if_asked_once b env q t l hl ps v]
  have hf : ∀ e r, Foreign e → e ≠ .own r := by
    rintro e r (rfl | ⟨o, rfl⟩) h <;> cases h
  rcases pledgeMem_cases b env q mem drop t ps v with ⟨e, h1, h2⟩ | h
  · rw [h1]
    exact ⟨fun r h => absurd h (hf _ _ h2), .inl rfl⟩
  · rw [h]
    rcases leave_cases env.handler drop (pledgeCalls b env q t ps v).1 (pledgeCalls b env q t ps v).2.1 with h3 | ⟨e, h3, h4⟩
    · rw [h3]
      refine ⟨fun r h => ?_, .inr rfl⟩
      injection h with h
      rw [← h]
    · rw [h3]
      exact ⟨fun r h => absurd h (hf _ _ h4), .inr rfl⟩

/-- Not vacuous: a thread that has pledged, with any calls of the allocator. -/
example (q : Nat → Query) (mem : Nat → List MemCall) (drop : List MemCall) := C90_whatever ⟨true⟩ calm q mem drop ({ thread0 with nnp := true, filters := [progOf ⟨100, 100⟩ [.StdIO] (.KillProcess : SeccompReturn).toU32] }) [⟨⟨100, 100⟩, [.StdIO], .KillProcess⟩] ((hasPledged_iff _ _).2 rfl) [.RPath] .Log

/-- C90: so at every such end the thread has the filters of its earlier pledges, and perhaps the complete filter of this one. -/
theorem C90_all_or_nothing (b : Build) (env : Env) (q : Nat → Query) (mem : Nat → List MemCall) (drop : List MemCall) (t : Thread)
    (l : List Past) (hl : HasPledged t l) (ps : List Promise) (v : SeccompReturn) :
    HasPledged (pledgeMem b env q mem drop t ps v).1 l ∨
    HasPledged (pledgeMem b env q mem drop t ps v).1 (⟨⟨t.pid, t.tid⟩, ps, v⟩ :: l) := by
  rcases (C90_whatever b env q mem drop t l hl ps v).2 with h | h
  · rw [h]; exact .inl hl
  · rw [h]
    by_cases he : enter t (recNnp env) = .executed
    · rw [pledge_executed b env t ps v l hl he]
      repeat' split
      all_goals first
        | exact .inl hl
        | exact .inl ((hasPledged_iff _ _).2 ((hasPledged_iff _ _).1 hl))
        | (right
           rw [hasPledged_iff]
           simp [(hasPledged_iff _ _).1 hl])
    · rw [pledge_not_executed b env t ps v l hl he]
      exact .inl hl

/-- Not vacuous: a thread that has pledged, with any calls of the allocator. -/
example (q : Nat → Query) (mem : Nat → List MemCall) (drop : List MemCall) := C90_all_or_nothing ⟨true⟩ calm q mem drop ({ thread0 with nnp := true, filters := [progOf ⟨100, 100⟩ [.StdIO] (.KillProcess : SeccompReturn).toU32] }) [⟨⟨100, 100⟩, [.StdIO], .KillProcess⟩] ((hasPledged_iff _ _).2 rfl) [.RPath] .Log

/-! ## C91: which calls of the allocator are served -/

/-- brk, munmap, mremap or madvise. -/
def HeapCall (d : SeccompData) : Prop := IsCall d 12 ∨ IsCall d 11 ∨ IsCall d 25 ∨ IsCall d 28

theorem heap_allowed (ids : Ids) (ps : List Promise) (d : SeccompData) (h : HeapCall d) : Allowed ids ps d ↔ .StdIO ∈ ps := by
  have hf : freeOf 12 = [.StdIO] ∧ freeOf 11 = [.StdIO] ∧ freeOf 25 = [.StdIO] ∧ freeOf 28 = [.StdIO] := by decide +kernel
  rcases h with h | h | h | h
  · rw [allowed_iff h.2 (by decide), hf.1]; simp [ruleAt]
  · rw [allowed_iff h.2 (by decide), hf.2.1]; simp [ruleAt]
  · rw [allowed_iff h.2 (by decide), hf.2.2.1]; simp [ruleAt]
  · rw [allowed_iff h.2 (by decide), hf.2.2.2]; simp [ruleAt]

theorem heap_arch {d : SeccompData} (h : HeapCall d) : d.arch = X86_64 := by
  rcases h with h | h | h | h <;> exact h.1

/-- C91: brk, munmap, mremap and madvise need StdIO, in every filter. -/
theorem C91_heap_needs_stdio (ids : Ids) (ps : List Promise) (d : SeccompData) (h : HeapCall d) :
    (.StdIO ∈ ps → Allows ids ps d) ∧ (.StdIO ∉ ps → Denies ids ps d) := by
  refine ⟨fun hs b v => ?_, fun hs b v => ?_⟩
  · rw [filterVerdict_eq, verdict_allowed (heap_arch h) ((heap_allowed ids ps d h).2 hs)]
  · rw [filterVerdict_eq, verdict_denied (heap_arch h) (fun h' => hs ((heap_allowed ids ps d h).1 h'))]

/-- C91: so, while the program is made, they meet the fate of the library's own system calls. -/
theorem C91_heap_like_own (t : Thread) (l : List Past) (hl : HasPledged t l) (env : Env) (d : SeccompData) (h : HeapCall d) :
    enter t d = enter t (recNnp env) := by
  unfold enter
  rw [runFilters_pledged hl, runFilters_pledged hl]
  congr 2
  apply List.map_congr_left
  intro p _
  rw [verdict_own p.ids p.ps _ env (recNnp env) (.inr (.inr (.inl rfl)))]
  by_cases hs : .StdIO ∈ p.ps
  · rw [if_pos hs, verdict_allowed (heap_arch h) ((heap_allowed p.ids p.ps d h).2 hs)]; rfl
  · rw [if_neg hs, verdict_denied (heap_arch h) (fun h' => hs ((heap_allowed p.ids p.ps d h).1 h'))]

/-- C91: an allocator that works on its heap only (brk, munmap, mremap, madvise) and gets along if these calls are executed does not
show, provided this pledge and all earlier ones include StdIO. -/
theorem C91_heap_unnoticed (b : Build) (env : Env) (q : Nat → Query) (mem : Nat → List MemCall) (drop : List MemCall) (t : Thread)
    (l : List Past) (hl : HasPledged t l) (ps : List Promise) (v : SeccompReturn) (hs : .StdIO ∈ ps) (hls : ∀ p ∈ l, .StdIO ∈ p.ps)
    (hm : ∀ k, ∀ c ∈ mem k, HeapCall c.d ∧ c.executed = .goesOn) (hd : ∀ c ∈ drop, HeapCall c.d ∧ c.executed = .goesOn) :
    pledgeMem b env q mem drop t ps v = ((pledgeOverride b env t ps v).1, .own (pledgeOverride b env t ps v).2) := by
  have ex : ∀ (u : Thread) (k : List Past), HasPledged u k → (∀ p ∈ k, .StdIO ∈ p.ps) → ∀ c : MemCall, HeapCall c.d ∧ c.executed = .goesOn →
      Served env.handler u c := by
    intro u k hu hk c hc
    have he : enter u c.d = .executed := by
      rw [C91_heap_like_own u k hu env c.d hc.1]
      rcases own_outcome env u k hu with h | ⟨p, hp, hn, _⟩
      · exact h
      · exact absurd (hk p hp) hn
    unfold Served
    rw [he]
    exact hc.2
  refine C90_served b env q mem drop t l hl ps v (fun k c hc => ex t l hl hls c (hm k c hc)) (fun c hc => ?_)
  have hh : HasPledged (pledgeOverride b env t ps v).1 l ∨ HasPledged (pledgeOverride b env t ps v).1 (⟨⟨t.pid, t.tid⟩, ps, v⟩ :: l) := by
    have h1 := C90_all_or_nothing b env q (fun _ => []) [] t l hl ps v
    rw [C90_served b env q (fun _ => []) [] t l hl ps v (by intro k c h; cases h) (by intro c h; cases h)] at h1
    exact h1
  rcases hh with hh | hh
  · exact ex _ _ hh hls c (hd c hc)
  · refine ex _ _ hh (fun p hp => ?_) c (hd c hc)
    rcases List.mem_cons.1 hp with rfl | hp
    · exact hs
    · exact hls p hp

theorem killed_by {t : Thread} {l : List Past} (hl : HasPledged t l) {p : Past} (hp : p ∈ l) (hv : p.v = .KillProcess) {d : SeccompData}
    (hd : Denies p.ids p.ps d) : enter t d = .killProcess := by
  unfold enter
  apply min_action
  rw [runFilters_pledged hl]
  refine Int.le_trans ((combine_le _ _).2 _ (List.mem_map.2 ⟨p, hp, rfl⟩)) ?_
  have := hd ⟨false⟩ p.v
  rw [filterVerdict_eq] at this
  injection this with this
  rw [this, hv]
  decide

/-- C91: a successful pledge without StdIO (default violation) whose program cannot be freed without brk, munmap, mremap or madvise never
returns: the new filter is in force and kills the process. -/
theorem C91_without_stdio_never_returns (b : Build) (env : Env) (q : Nat → Query) (mem : Nat → List MemCall) (c : MemCall)
    (drop : List MemCall) (t : Thread) (l : List Past) (hl : HasPledged t l) (hls : ∀ p ∈ l, .StdIO ∈ p.ps) (ps : List Promise)
    (hs : .StdIO ∉ ps) (hc : HeapCall c.d) (hm : ∀ k, ∀ c ∈ mem k, Served env.handler t c)
    (hok : (pledgeOverride b env t ps .KillProcess).2 = .ok) :
    (pledgeMem b env q mem (c :: drop) t ps .KillProcess).2 = .died .killProcess ∧
    HasPledged (pledgeMem b env q mem (c :: drop) t ps .KillProcess).1 (⟨⟨t.pid, t.tid⟩, ps, .KillProcess⟩ :: l) := by
  have he : enter t (recNnp env) = .executed := by
    rcases own_outcome env t l hl with h | ⟨p, hp, hn, _⟩
    · exact h
    · exact absurd (hls p hp) hn
  have hh : HasPledged (pledgeOverride b env t ps .KillProcess).1 (⟨⟨t.pid, t.tid⟩, ps, .KillProcess⟩ :: l) := by
    rw [pledge_executed b env t ps _ l hl he] at hok ⊢
    cases h1 : env.nnpFault with
    | some e => rw [h1] at hok; cases hok
    | none =>
      cases h2 : env.seccompFault with
      | some e => rw [h1, h2] at hok; cases hok
      | none =>
        rw [h1, h2] at hok
        simp only at hok ⊢
        by_cases hlen : (progOf ⟨t.pid, t.tid⟩ ps SeccompReturn.KillProcess.toU32).length ≤ 4096
        · rw [if_pos hlen, hasPledged_iff]
          simp [(hasPledged_iff _ _).1 hl]
        · rw [if_neg hlen] at hok; cases hok
  have h78 := C78_as_if_asked_once b env q t l hl ps .KillProcess
  rw [← h78] at hok hh
  simp only at hok hh
  have hk := killed_by hh (List.mem_cons_self) rfl ((C91_heap_needs_stdio ⟨t.pid, t.tid⟩ ps c.d hc).2 hs)
  rw [pledgeMem_plain b env q mem (c :: drop) t ps _ (fragsMem_served _ _ _ _ _ hm _ _), hok]
  unfold leave
  have hman : manage env.handler (pledgeCalls b env q t ps .KillProcess).1 (c :: drop) = some (.died .killProcess) := by
    unfold manage
    rw [hk]
  rw [hman]
  exact ⟨rfl, hh⟩

theorem mmap_denied (ids : Ids) (ps : List Promise) (d : SeccompData) (hx : .ProtExec ∉ ps) (hc : IsCall d 9) (hrw : arg d 2 = 3) :
    Denies ids ps d := by
  refine denies_rule hc (by decide) fun p' hps => ?_
  have hf : freeOf 9 = [] := by decide +kernel
  refine ⟨by simp [hf], ?_⟩
  rintro (⟨rfl, h2, _⟩ | ⟨rfl, _⟩)
  · rw [hrw] at h2; exact absurd h2 (by decide)
  · exact hx hps

theorem fragsMem_ok (b : Build) (handler : Bool) (t : Thread) (q : Nat → Query) (mem : Nat → List MemCall) (k : Nat)
    (fs : List Filtered) (codes : List (List SockFilter)) (h : fragsMem b handler t q mem k fs = .ok (.ok codes)) (j : Nat)
    (hj : j ≤ fs.length) : ∀ c ∈ mem (k + j), Served handler t c := by
  induction fs generalizing k j codes with
  | nil =>
    unfold fragsMem at h
    cases hm : manage handler t (mem k) with
    | some e => rw [hm] at h; cases h
    | none =>
      have : j = 0 := by simpa using hj
      subst this
      exact (manage_none_iff _ _ _).1 hm
  | cons f fs ih =>
    unfold fragsMem at h
    cases hm : manage handler t (mem k) with
    | some e => rw [hm] at h; cases h
    | none =>
      cases j with
      | zero => exact (manage_none_iff _ _ _).1 hm
      | succ j =>
        rw [hm] at h
        simp only at h
        split at h
        · cases h
        · cases h
        · cases h
        · split at h
          · rename_i h2
            rw [show k + (j + 1) = (k + 1) + j by omega]
            exact ih (k + 1) _ h2 j (by simpa using hj)
          · rename_i h2
            exact absurd h (h2 codes)

/-- C91: memory that is to be readable and writable cannot be had with mmap after a pledge without ProtExec (default violation), not even
for making the program of the next pledge: that pledge kills the process and changes no filter. -/
theorem C91_mmap_kills (b : Build) (env : Env) (q : Nat → Query) (mem : Nat → List MemCall) (c : MemCall) (cs drop : List MemCall)
    (t : Thread) (l : List Past) (hl : HasPledged t l) (ps : List Promise) (v : SeccompReturn) (p : Past) (hp : p ∈ l)
    (hv : p.v = .KillProcess) (hx : .ProtExec ∉ p.ps) (hc : IsCall c.d 9) (hrw : arg c.d 2 = 3) (h0 : mem 0 = c :: cs) :
    pledgeMem b env q mem drop t ps v = (t, .died .killProcess) := by
  have hden := mmap_denied p.ids p.ps c.d hx hc hrw
  have hk : manage env.handler t (mem 0) = some (.died .killProcess) := by
    rw [h0]
    unfold manage
    rw [killed_by hl hp hv hden]
  have hne : ∃ f fs, allFilters ps = f :: fs := ⟨_, _, rfl⟩
  obtain ⟨f, fs, hf⟩ := hne
  unfold pledgeMem
  rw [mapM_filters]
  simp only
  rw [show ((Promise.Default :: ps).map filtersOf).flatten = allFilters ps from rfl, hf]
  unfold fragsMem
  rw [hk]

/-- C91: wherever in the making of the program such a call comes, the pledge does not succeed and no filter changes. -/
theorem C91_mmap_never_ok (b : Build) (env : Env) (q : Nat → Query) (mem : Nat → List MemCall) (drop : List MemCall) (t : Thread)
    (l : List Past) (hl : HasPledged t l) (ps : List Promise) (v : SeccompReturn) (p : Past) (hp : p ∈ l) (hv : p.v = .KillProcess)
    (hx : .ProtExec ∉ p.ps) (k : Nat) (hk : k ≤ (allFilters ps).length) (c : MemCall) (hc : c ∈ mem k) (h9 : IsCall c.d 9)
    (hrw : arg c.d 2 = 3) :
    (pledgeMem b env q mem drop t ps v).1 = t ∧ (pledgeMem b env q mem drop t ps v).2 ≠ .own .ok := by
  have hkill := killed_by hl hp hv (mmap_denied p.ids p.ps c.d hx h9 hrw)
  have hno : ∀ codes, fragsMem b env.handler t q mem 0 (allFilters ps) ≠ .ok (.ok codes) := by
    intro codes h
    have := fragsMem_ok b env.handler t q mem 0 _ codes h k hk c (by simpa using hc)
    unfold Served at this
    rw [hkill] at this
    exact this
  have hlv : ∀ r : PledgeRes, r ≠ .ok → (leave env.handler drop t r).1 = t ∧ (leave env.handler drop t r).2 ≠ .own .ok := by
    intro r hr
    rcases leave_cases env.handler drop t r with h | ⟨e, h, hf⟩
    · rw [h]
      exact ⟨rfl, fun h' => hr (by injection h')⟩
    · rw [h]
      refine ⟨rfl, fun h' => ?_⟩
      simp only at h'
      rw [h'] at hf
      rcases hf with h | ⟨o, h⟩ <;> cases h
  rcases fragsMem_cases b env.handler t q mem 0 (allFilters ps) with ⟨e, h, hf⟩ | h
  · unfold pledgeMem
    rw [mapM_filters]
    simp only
    rw [show ((Promise.Default :: ps).map filtersOf).flatten = allFilters ps from rfl, h]
    refine ⟨rfl, fun h' => ?_⟩
    simp only at h'
    rw [h'] at hf
    rcases hf with h | ⟨o, h⟩ <;> cases h
  · rw [pledgeMem_plain b env q mem drop t ps v h]
    unfold pledgeCalls
    rw [mapM_filters]
    simp only
    rw [show ((Promise.Default :: ps).map filtersOf).flatten = allFilters ps from rfl]
    generalize hr : fragsBy b env.handler t q 0 (allFilters ps) = x at h
    obtain ⟨calls, r⟩ := x
    simp only at h
    cases r with
    | error o => exact hlv _ (by intro h; cases h)
    | ok r =>
      cases r with
      | err e => exact hlv _ (by intro h; cases h)
      | panic => exact hlv _ (by intro h; cases h)
      | ok codes => exact absurd h (hno codes)

/-! ### Cases -/

/-- An allocator that moves the end of the heap before each fragment and gives memory back at the end. -/
def brkCall : MemCall := ⟨mkCall 12 [0x1000], .goesOn, .givesUp⟩
/-- An allocator that maps a new region, readable and writable. -/
def mapCall : MemCall := ⟨mkCall 9 [0, 0x21000, 3, 0x22], .goesOn, .givesUp⟩

/-- With StdIO nothing shows; without it a first pledge that succeeds kills the process when its program is freed. -/
example (b : Build) (q : Nat → Query) :
    pledgeMem b calm q (fun _ => [brkCall]) [brkCall] thread0 [.StdIO] .KillProcess =
      ((pledgeOverride b calm thread0 [.StdIO] .KillProcess).1, .own .ok) ∧
    (pledgeMem b calm q (fun _ => [brkCall]) [brkCall] thread0 [.RPath] .KillProcess).2 = .died .killProcess := by
  have hl : HasPledged thread0 [] := rfl
  have hb : HeapCall brkCall.d := .inl ⟨rfl, rfl⟩
  have ok : ∀ ps, filterSize ps ≤ 4096 → (pledgeOverride b calm thread0 ps .KillProcess).2 = .ok := fun ps h =>
    ((C68_einval_iff b calm thread0 rfl ps .KillProcess rfl rfl).1).2 h
  refine ⟨?_, (C91_without_stdio_never_returns b calm q _ brkCall [] thread0 [] hl (by simp) [.RPath] (by decide) hb ?_ (ok _ ?_)).1⟩
  · rw [C91_heap_unnoticed b calm q _ _ thread0 [] hl [.StdIO] .KillProcess (by simp) (by simp)
      (by intro k c hc; rw [List.mem_singleton.1 hc]; exact ⟨hb, rfl⟩) (by intro c hc; rw [List.mem_singleton.1 hc]; exact ⟨hb, rfl⟩),
      ok _ (by decide +kernel)]
  · intro k c hc
    rw [List.mem_singleton.1 hc]
    have he : enter thread0 brkCall.d = .executed := by decide
    unfold Served
    rw [he]
    rfl
  · decide +kernel

/-- Having pledged StdIO, a thread whose allocator needs a new region dies in its next pledge. -/
example (b : Build) (q : Nat → Query) (t : Thread) (hl : HasPledged t [⟨⟨100, 100⟩, [.StdIO], .KillProcess⟩]) :
    pledgeMem b calm q (fun _ => [mapCall]) [] t [.StdIO] .KillProcess = (t, .died .killProcess) :=
  C91_mmap_kills b calm q _ mapCall [] [] t _ hl _ _ ⟨⟨100, 100⟩, [.StdIO], .KillProcess⟩ (by simp) rfl (by decide) ⟨rfl, rfl⟩ rfl rfl

end Props
