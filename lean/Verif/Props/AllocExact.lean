import Verif.Spec.Alloc
import Verif.Props.Alloc
import Verif.Props.Steered

/-!
# C90, C91: the first call that goes wrong decides
-/
set_option autoImplicit false

namespace Props
open Bpfvm Kernel Pledge Spec

theorem served_iff (h : Bool) (t : Thread) (c : MemCall) : Copes h t c ↔ Served h t c := by
  unfold Copes EndsWith Served Fatal
  cases enter t c.d <;> cases h <;> cases c.executed <;> cases c.refused <;> simp

theorem manage_first (h : Bool) (t : Thread) (cs : List MemCall) (e : Pledge.Ending) : manage h t cs = some e ↔ FirstEnds h t cs e := by
  induction cs with
  | nil => simp [manage, FirstEnds]
  | cons c cs ih =>
    by_cases hs : Served h t c
    · have h1 : manage h t (c :: cs) = manage h t cs := by
        unfold Served at hs
        rw [manage]
        cases he : enter t c.d <;> rw [he] at hs <;> simp_all
      rw [h1, ih]
      constructor
      · rintro ⟨pre, x, post, rfl, hp, hx⟩
        exact ⟨c :: pre, x, post, rfl, by
          intro y hy
          rcases List.mem_cons.1 hy with rfl | hy
          · exact (served_iff h t y).2 hs
          · exact hp y hy, hx⟩
      · rintro ⟨pre, x, post, hc, hp, hx⟩
        cases pre with
        | nil =>
          simp only [List.nil_append, List.cons.injEq] at hc
          obtain ⟨rfl, rfl⟩ := hc
          exact absurd hx ((served_iff h t c).2 hs e)
        | cons y pre =>
          simp only [List.cons_append, List.cons.injEq] at hc
          obtain ⟨rfl, rfl⟩ := hc
          exact ⟨pre, x, post, rfl, fun z hz => hp z (List.mem_cons_of_mem _ hz), hx⟩
    · have h1 : manage h t (c :: cs) = some e ↔ EndsWith h t c e := by
        unfold Served at hs
        unfold EndsWith Fatal
        rw [manage]
        cases he : enter t c.d <;> rw [he] at hs <;> cases h <;> cases hx : c.executed <;> cases hr : c.refused <;> simp_all <;>
          exact eq_comm
      rw [h1]
      constructor
      · intro hx
        exact ⟨[], c, cs, rfl, by simp, hx⟩
      · rintro ⟨pre, x, post, hc, hp, hx⟩
        cases pre with
        | nil =>
          simp only [List.nil_append, List.cons.injEq] at hc
          obtain ⟨rfl, rfl⟩ := hc
          exact hx
        | cons y pre =>
          simp only [List.cons_append, List.cons.injEq] at hc
          obtain ⟨rfl, rfl⟩ := hc
          exact absurd ((served_iff h t c).1 (hp c List.mem_cons_self)) hs

theorem fragBy_query (b : Build) (h : Bool) (t : Thread) (q : Nat → Query) (k : Nat) (f : Filtered) :
    (∀ d, (match some f with | some .KillSelf => some (q k).getpid | some .TkillSelf => some (q k).gettid | _ => none) = some d →
      Fatal h (enter t d) → (fragBy b h t (q k) f).2 = .error (enter t d)) ∧
    ((∀ d, (match some f with | some .KillSelf => some (q k).getpid | some .TkillSelf => some (q k).gettid | _ => none) = some d →
      ¬ Fatal h (enter t d)) → ∃ code, (fragBy b h t (q k) f).2 = .ok (.ok code)) := by
  have hask : ∀ d (g : BitVec 32 → Ids) real, (Fatal h (enter t d) → (match enter t d with
        | .executed => .ok (filterToBpf b (g real) f)
        | .errno _ => .ok (filterToBpf b (g (q k).fail) f)
        | .trap => if h then .ok (filterToBpf b (g (q k).fail) f) else .error .trap
        | o => .error o : Except Outcome (Res PledgeError (List SockFilter))) = .error (enter t d)) ∧
      (¬ Fatal h (enter t d) → ∃ code, (match enter t d with
        | .executed => .ok (filterToBpf b (g real) f)
        | .errno _ => .ok (filterToBpf b (g (q k).fail) f)
        | .trap => if h then .ok (filterToBpf b (g (q k).fail) f) else .error .trap
        | o => .error o : Except Outcome (Res PledgeError (List SockFilter))) = .ok (.ok code)) := by
    intro d g real
    unfold Fatal
    cases enter t d <;> cases h <;> simp [filterToBpf_eq]
  by_cases hk : f = .KillSelf
  · subst hk
    simp only [Option.some.injEq, forall_eq']
    exact hask (q k).getpid (fun pid => ⟨pid, 0⟩) t.pid
  · by_cases ht : f = .TkillSelf
    · subst ht
      simp only [Option.some.injEq, forall_eq']
      exact hask (q k).gettid (fun tid => ⟨0, tid⟩) t.tid
    · cases f <;> first | exact absurd rfl hk | exact absurd rfl ht | (simp [fragBy, filterToBpf_eq]; done)

/-- `queryAt` for a list of pieces whose first one is number `k0`. -/
def ofPiece (q : Nat → Query) (k0 : Nat) (fs : List Filtered) (j : Nat) : Option SeccompData :=
  match fs[j]? with
  | some .KillSelf => some (q (k0 + j)).getpid
  | some .TkillSelf => some (q (k0 + j)).gettid
  | _ => none

theorem ofPiece_succ (q : Nat → Query) (k0 : Nat) (f : Filtered) (fs : List Filtered) (j : Nat) :
    ofPiece q k0 (f :: fs) (j + 1) = ofPiece q (k0 + 1) fs j := by
  simp only [ofPiece, List.getElem?_cons_succ, show k0 + (j + 1) = k0 + 1 + j by omega]

theorem ofPiece_zero (q : Nat → Query) (k0 : Nat) (f : Filtered) (fs : List Filtered) : ofPiece q k0 (f :: fs) 0 =
    match some f with | some .KillSelf => some (q k0).getpid | some .TkillSelf => some (q k0).gettid | _ => none := rfl

theorem fragsMem_at (b : Build) (h : Bool) (t : Thread) (q : Nat → Query) (mem : Nat → List MemCall) (fs : List Filtered) (k0 n : Nat)
    (hn : n ≤ fs.length)
    (hp : ∀ j, j < n → manage h t (mem (k0 + j)) = none ∧ ∀ d, ofPiece q k0 fs j = some d → ¬ Fatal h (enter t d)) :
    (∀ e, manage h t (mem (k0 + n)) = some e → fragsMem b h t q mem k0 fs = .error e) ∧
    (manage h t (mem (k0 + n)) = none → ∀ d, ofPiece q k0 fs n = some d → Fatal h (enter t d) →
      fragsMem b h t q mem k0 fs = .error (.own (.died (enter t d)))) ∧
    (manage h t (mem (k0 + n)) = none → n = fs.length → ∃ codes, fragsMem b h t q mem k0 fs = .ok (.ok codes)) := by
  induction fs generalizing k0 n with
  | nil =>
    have : n = 0 := by simpa using hn
    subst this
    refine ⟨fun e he => ?_, fun _ d hd => ?_, fun he _ => ⟨[], ?_⟩⟩
    · unfold fragsMem; rw [show k0 = k0 + 0 from rfl, he]
    · simp [ofPiece] at hd
    · unfold fragsMem; rw [show k0 = k0 + 0 from rfl, he]
  | cons f fs ih =>
    cases n with
    | zero =>
      refine ⟨fun e he => ?_, fun he d hd hf => ?_, fun _ h0 => by simp at h0⟩
      · unfold fragsMem; rw [show k0 = k0 + 0 from rfl, he]
      · unfold fragsMem
        rw [ofPiece_zero] at hd
        rw [Nat.add_zero] at he
        rw [he, (fragBy_query b h t q k0 f).1 d hd hf]
    | succ n =>
      obtain ⟨h0, hq0⟩ := hp 0 (by omega)
      rw [ofPiece_zero] at hq0
      rw [Nat.add_zero] at h0
      obtain ⟨code, hcode⟩ := (fragBy_query b h t q k0 f).2 hq0
      have hrest := ih (k0 + 1) n (by simpa using hn) (by
        intro j hj
        obtain ⟨h1, h2⟩ := hp (j + 1) (by omega)
        rw [ofPiece_succ] at h2
        rw [show k0 + 1 + j = k0 + (j + 1) by omega]
        exact ⟨h1, h2⟩)
      rw [show k0 + 1 + n = k0 + (n + 1) by omega] at hrest
      obtain ⟨h1, h2, h3⟩ := hrest
      unfold fragsMem
      rw [h0, hcode]
      simp only
      refine ⟨fun e he => by rw [h1 e he], fun he d hd hf => ?_, fun he hl => ?_⟩
      · rw [ofPiece_succ] at hd
        rw [h2 he d hd hf]
      · obtain ⟨codes, hc⟩ := h3 he (by simpa using hl)
        exact ⟨code :: codes, by rw [hc]⟩

theorem queryAt_eq (q : Nat → Query) (ps : List Promise) (k : Nat) : queryAt q ps k = ofPiece q 0 (allFilters ps) k := by
  unfold queryAt ofPiece
  rw [pieces_eq, Nat.zero_add]
  rfl

theorem getsTo_manage {h : Bool} {q : Nat → Query} {mem : Nat → List MemCall} {t : Thread} {ps : List Promise} {k : Nat}
    (hg : GetsTo h q mem t ps k) : ∀ j, j < k → manage h t (mem (0 + j)) = none ∧
      ∀ d, ofPiece q 0 (allFilters ps) j = some d → ¬ Fatal h (enter t d) := by
  intro j hj
  obtain ⟨h1, h2⟩ := hg j hj
  rw [queryAt_eq] at h2
  rw [Nat.zero_add]
  exact ⟨(manage_none_iff _ _ _).2 fun c hc => (served_iff _ _ _).1 (h1 c hc), h2⟩

theorem pledgeMem_error (b : Build) (env : Env) (q : Nat → Query) (mem : Nat → List MemCall) (drop : List MemCall) (t : Thread)
    (ps : List Promise) (v : SeccompReturn) (e : Pledge.Ending) (h : fragsMem b env.handler t q mem 0 (allFilters ps) = .error e) :
    pledgeMem b env q mem drop t ps v = (t, e) := by
  unfold pledgeMem
  rw [mapM_filters]
  simp only
  rw [show ((Promise.Default :: ps).map filtersOf).flatten = allFilters ps from rfl, h]

/-- C90: while the program is made, the first call of the allocator that goes wrong decides: the thread is as before, and the pledge ends
as this call says. -/
theorem C90_first (b : Build) (env : Env) (q : Nat → Query) (mem : Nat → List MemCall) (drop : List MemCall) (t : Thread)
    (ps : List Promise) (v : SeccompReturn) (k : Nat) (hk : k ≤ (pieces ps).length) (hg : GetsTo env.handler q mem t ps k)
    (e : Pledge.Ending) (he : FirstEnds env.handler t (mem k) e) : pledgeMem b env q mem drop t ps v = (t, e) := by
  rw [pieces_eq] at hk
  refine pledgeMem_error b env q mem drop t ps v e ((fragsMem_at b env.handler t q mem (allFilters ps) 0 k hk (getsTo_manage hg)).1 e ?_)
  rw [Nat.zero_add]
  exact (manage_first _ _ _ _).2 he

/-- C90: a query for an id that the thread does not survive ends the pledge, if the allocator's calls before it went well. -/
theorem C90_query (b : Build) (env : Env) (q : Nat → Query) (mem : Nat → List MemCall) (drop : List MemCall) (t : Thread)
    (ps : List Promise) (v : SeccompReturn) (k : Nat) (hk : k ≤ (pieces ps).length) (hg : GetsTo env.handler q mem t ps k)
    (hm : ∀ c ∈ mem k, Copes env.handler t c) (d : SeccompData) (hd : queryAt q ps k = some d) (hf : Fatal env.handler (enter t d)) :
    pledgeMem b env q mem drop t ps v = (t, .own (.died (enter t d))) := by
  rw [pieces_eq] at hk
  rw [queryAt_eq] at hd
  refine pledgeMem_error b env q mem drop t ps v _
    ((fragsMem_at b env.handler t q mem (allFilters ps) 0 k hk (getsTo_manage hg)).2.1 ?_ d hd hf)
  rw [Nat.zero_add]
  exact (manage_none_iff _ _ _).2 fun c hc => (served_iff _ _ _).1 (hm c hc)

/-- C90: if the making of the program goes well, the result and the effect are those of a pledge without the allocator; only the freeing of
the program can end it in another way, if it has not killed the thread by then. -/
theorem C90_freed (b : Build) (env : Env) (q : Nat → Query) (mem : Nat → List MemCall) (drop : List MemCall) (t : Thread)
    (l : List Past) (hl : HasPledged t l) (ps : List Promise) (v : SeccompReturn) (hg : GetsTo env.handler q mem t ps (pieces ps).length)
    (hm : ∀ c ∈ mem (pieces ps).length, Copes env.handler t c) :
    let r := pledgeOverride b env t ps v
    ((∃ o, r.2 = .died o) → pledgeMem b env q mem drop t ps v = (r.1, .own r.2)) ∧
    ((∀ c ∈ drop, Copes env.handler r.1 c) → pledgeMem b env q mem drop t ps v = (r.1, .own r.2)) ∧
    (∀ e, (∀ o, r.2 ≠ .died o) → FirstEnds env.handler r.1 drop e → pledgeMem b env q mem drop t ps v = (r.1, e)) := by
  intro r
  have hr : r = pledgeOverride b env t ps v := rfl
  have h78 := C78_as_if_asked_once b env q t l hl ps v
  have h1 : (pledgeCalls b env q t ps v).1 = r.1 ∧ (pledgeCalls b env q t ps v).2.1 = r.2 := by
    rw [hr, ← h78]; exact ⟨rfl, rfl⟩
  rw [pieces_eq] at hg hm
  obtain ⟨codes, hc⟩ := (fragsMem_at b env.handler t q mem (allFilters ps) 0 _ (Nat.le_refl _) (getsTo_manage hg)).2.2 (by
    rw [Nat.zero_add]
    exact (manage_none_iff _ _ _).2 fun c hc => (served_iff _ _ _).1 (hm c hc)) rfl
  have hplain : fragsMem b env.handler t q mem 0 (allFilters ps) = plain (fragsBy b env.handler t q 0 (allFilters ps)).2 := by
    rcases fragsMem_cases b env.handler t q mem 0 (allFilters ps) with ⟨e, he, _⟩ | he
    · rw [hc] at he; cases he
    · exact he
  rw [pledgeMem_plain b env q mem drop t ps v hplain, h1.1, h1.2]
  refine ⟨?_, fun hd => ?_, fun e hn he => ?_⟩
  · rintro ⟨o, ho⟩
    unfold leave
    rw [ho]
  · unfold leave
    rw [(manage_none_iff _ _ _).2 fun c hc => (served_iff _ _ _).1 (hd c hc)]
    split
    · rename_i h2; rw [h2]
    · rfl
  · unfold leave
    rw [(manage_first _ _ _ _).2 he]
    split
    · rename_i o h2; exact absurd h2 (hn o)
    · rfl

theorem manage_copes {h : Bool} {t : Thread} {cs : List MemCall} (hn : ∀ e, ¬ FirstEnds h t cs e) : ∀ c ∈ cs, Copes h t c := by
  intro c hc
  refine (served_iff _ _ _).2 ((manage_none_iff h t cs).1 ?_ c hc)
  cases hm : manage h t cs with
  | none => rfl
  | some e => exact absurd ((manage_first _ _ _ _).1 hm) (hn e)

/-- C90: these are all cases. -/
theorem C90_cases (env : Env) (q : Nat → Query) (mem : Nat → List MemCall) (t : Thread) (ps : List Promise) :
    (∃ k e, k ≤ (pieces ps).length ∧ GetsTo env.handler q mem t ps k ∧ FirstEnds env.handler t (mem k) e) ∨
    (∃ k d, k ≤ (pieces ps).length ∧ GetsTo env.handler q mem t ps k ∧ (∀ c ∈ mem k, Copes env.handler t c) ∧
      queryAt q ps k = some d ∧ Fatal env.handler (enter t d)) ∨
    (GetsTo env.handler q mem t ps (pieces ps).length ∧ ∀ c ∈ mem (pieces ps).length, Copes env.handler t c) := by
  have step : ∀ k, k ≤ (pieces ps).length →
      ((∃ k e, k ≤ (pieces ps).length ∧ GetsTo env.handler q mem t ps k ∧ FirstEnds env.handler t (mem k) e) ∨
       (∃ k d, k ≤ (pieces ps).length ∧ GetsTo env.handler q mem t ps k ∧ (∀ c ∈ mem k, Copes env.handler t c) ∧
         queryAt q ps k = some d ∧ Fatal env.handler (enter t d))) ∨ GetsTo env.handler q mem t ps k := by
    intro k
    induction k with
    | zero => exact fun _ => .inr fun j hj => by omega
    | succ k ih =>
      intro hk
      rcases ih (by omega) with h | hg
      · exact .inl h
      · by_cases h1 : ∃ e, FirstEnds env.handler t (mem k) e
        · obtain ⟨e, he⟩ := h1
          exact .inl (.inl ⟨k, e, by omega, hg, he⟩)
        · have hc := manage_copes fun e he => h1 ⟨e, he⟩
          by_cases h2 : ∃ d, queryAt q ps k = some d ∧ Fatal env.handler (enter t d)
          · obtain ⟨d, hd, hf⟩ := h2
            exact .inl (.inr ⟨k, d, by omega, hg, hc, hd, hf⟩)
          · refine .inr fun j hj => ?_
            by_cases hjk : j = k
            · subst hjk; exact ⟨hc, fun d hd hf => h2 ⟨d, hd, hf⟩⟩
            · exact hg j (by omega)
  rcases step _ (Nat.le_refl _) with (h | h) | hg
  · exact .inl h
  · exact .inr (.inl h)
  · by_cases h1 : ∃ e, FirstEnds env.handler t (mem (pieces ps).length) e
    · obtain ⟨e, he⟩ := h1
      exact .inl ⟨_, e, Nat.le_refl _, hg, he⟩
    · exact .inr (.inr ⟨hg, manage_copes fun e he => h1 ⟨e, he⟩⟩)

/-- C91: wherever in the making of the program the allocator asks for a new readable and writable mapping, after a pledge without ProtExec
(default violation): if the making gets there, the process is killed and no filter has changed. -/
theorem C91_mmap_kills_there (b : Build) (env : Env) (q : Nat → Query) (mem : Nat → List MemCall) (drop : List MemCall) (t : Thread)
    (l : List Past) (hl : HasPledged t l) (ps : List Promise) (v : SeccompReturn) (p : Past) (hp : p ∈ l) (hv : p.v = .KillProcess)
    (hx : .ProtExec ∉ p.ps) (k : Nat) (hk : k ≤ (pieces ps).length) (hg : GetsTo env.handler q mem t ps k) (c : MemCall)
    (before after : List MemCall) (h0 : mem k = before ++ c :: after) (hb : ∀ x ∈ before, Copes env.handler t x) (hc : IsCall c.d 9)
    (hrw : arg c.d 2 = 3) : pledgeMem b env q mem drop t ps v = (t, .died .killProcess) := by
  have hkill := killed_by hl hp hv (mmap_denied p.ids p.ps c.d hx hc hrw)
  exact C90_first b env q mem drop t ps v k hk hg _ ⟨before, c, after, h0, hb, .inl ⟨by rw [hkill]; exact .inr (.inl rfl), by rw [hkill]⟩⟩

/-! ### Cases -/

/-- Having pledged StdIO, a thread whose allocator moves the end of the heap before every piece, and needs a new region before the tenth,
dies there. -/
example (b : Build) (q : Nat → Query) (t : Thread) (hl : HasPledged t [⟨⟨100, 100⟩, [.StdIO], .KillProcess⟩]) :
    pledgeMem b calm q (fun k => if k = 10 then [brkCall, mapCall] else [brkCall]) [] t [.StdIO] .KillProcess = (t, .died .killProcess) := by
  have hx : enter t (recNnp calm) = .executed := by
    rcases own_outcome calm t _ hl with h | ⟨p, hp, hn, _⟩
    · exact h
    · rw [List.mem_singleton.1 hp] at hn; exact absurd (List.mem_singleton.2 rfl) hn
  have hbrk : Copes calm.handler t brkCall := by
    rw [served_iff]
    unfold Served
    rw [C91_heap_like_own t _ hl calm _ (.inl ⟨rfl, rfl⟩), hx]
    rfl
  refine C91_mmap_kills_there b calm q _ [] t _ hl _ _ ⟨⟨100, 100⟩, [.StdIO], .KillProcess⟩ (by simp) rfl (by decide) 10
    (by decide +kernel) ?_ mapCall [brkCall] [] rfl (by simpa using hbrk) ⟨rfl, rfl⟩ rfl
  intro j hj
  simp only [if_neg (show ¬ j = 10 by omega)]
  refine ⟨by simpa using hbrk, fun d hd hf => ?_⟩
  have he : enter t d = .executed := by
    obtain ⟨env', h1, h2⟩ := query_rec calm (q j)
    unfold queryAt at hd
    split at hd
    · injection hd with hd; rw [← hd, h1, enter_own hl env' calm _ (.inl rfl), hx]
    · injection hd with hd; rw [← hd, h2, enter_own hl env' calm _ (.inr (.inl rfl)), hx]
    · cases hd
  rw [he] at hf
  rcases hf with h | h | ⟨h, _⟩ <;> cases h

end Props
