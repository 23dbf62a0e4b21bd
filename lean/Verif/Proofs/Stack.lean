import Verif.Spec.History
import Verif.Proofs.Policy
import Verif.Proofs.Prefix

/-!
# Filter stacks, the two prctl calls and histories
-/
set_option autoImplicit false

namespace Kernel
open Bpfvm

/-! ## runFilters -/

/-- Return value of one filter as `runFilters` sees it. -/
def cur (f : Prog) (d : SeccompData) : BitVec 32 := (run (fun _ => 0) f d.words).getD 0

/-- `runFilters` on the list of values. -/
def combine (init : BitVec 32) (vals : List (BitVec 32)) : BitVec 32 :=
  vals.foldl (fun ret c => if actionOnly c < actionOnly ret then c else ret) init

theorem runFilters_eq (fs : List Prog) (d : SeccompData) :
    runFilters fs d = combine 0x7fff0000#32 (fs.map fun f => cur f d) := by
  simp only [runFilters, combine, List.foldl_map]
  rfl

theorem combine_mem (init : BitVec 32) (vals : List (BitVec 32)) : combine init vals = init ∨ combine init vals ∈ vals := by
  induction vals generalizing init with
  | nil => exact .inl rfl
  | cons c vals ih =>
    simp only [combine, List.foldl_cons] at ih ⊢
    split
    · rcases ih c with h | h
      · exact .inr (by rw [h]; simp)
      · exact .inr (by simp [h])
    · rcases ih init with h | h
      · exact .inl h
      · exact .inr (by simp [h])

theorem combine_le (init : BitVec 32) (vals : List (BitVec 32)) :
    actionOnly (combine init vals) ≤ actionOnly init ∧ ∀ c ∈ vals, actionOnly (combine init vals) ≤ actionOnly c := by
  induction vals generalizing init with
  | nil => exact ⟨Int.le_refl _, by simp⟩
  | cons c vals ih =>
    simp only [combine, List.foldl_cons, List.mem_cons, forall_eq_or_imp] at ih ⊢
    split
    · have := ih c; exact ⟨by omega, this.1, this.2⟩
    · have := ih init; exact ⟨this.1, by omega, this.2⟩

theorem combine_append (init : BitVec 32) (xs ys : List (BitVec 32)) :
    combine init (xs ++ ys) = combine (combine init xs) ys := by simp [combine, List.foldl_append]

/-- The action of a larger stack is not above the action of a part of it. -/
theorem action_suffix {old new : List Prog} (h : old <:+ new) (d : SeccompData) :
    actionOnly (runFilters new d) ≤ actionOnly (runFilters old d) := by
  obtain ⟨pre, rfl⟩ := h
  rw [runFilters_eq, runFilters_eq, List.map_append]
  have h1 := combine_le 0x7fff0000#32 ((pre.map fun f => cur f d) ++ old.map fun f => cur f d)
  rcases combine_mem 0x7fff0000#32 (old.map fun f => cur f d) with h | h
  · rw [h]; exact h1.1
  · exact h1.2 _ (by simp only [List.mem_append]; exact .inr h)

theorem runFilters_congr {fs : List Prog} {d e : SeccompData} (h : ∀ f ∈ fs, cur f d = cur f e) :
    runFilters fs d = runFilters fs e := by
  rw [runFilters_eq, runFilters_eq, List.map_congr_left h]

/-! ## Actions -/

theorem action_eq_iff (r c : BitVec 32) : actionOnly r = (c.toInt) ↔ r &&& 0xffff0000#32 = c := by
  unfold actionOnly
  exact ⟨fun h => BitVec.eq_of_toInt_eq h, fun h => by rw [h]⟩

theorem outcome_executed (r : BitVec 32) :
    outcome r = .executed ↔ actionOnly r = (0x7ffc0000#32).toInt ∨ actionOnly r = (0x7fff0000#32).toInt := by
  rw [action_eq_iff, action_eq_iff]
  generalize hx : r &&& 0xffff0000#32 = x
  unfold outcome
  simp only [hx]
  by_cases h1 : x = 0x7ffc0000#32
  · subst h1; simp
  by_cases h2 : x = 0x7fff0000#32
  · subst h2; simp
  simp only [h1, h2, or_self, iff_false, if_false]
  split
  · simp
  split
  · simp
  split
  · simp
  split
  · simp
  split <;> simp

theorem action_dvd (r : BitVec 32) : (65536 : Int) ∣ actionOnly r := by
  have h16 : (r &&& 0xffff0000#32).toNat % 65536 = 0 := by
    rw [BitVec.toNat_and]
    apply Nat.eq_of_testBit_eq
    intro i
    rw [show (65536 : Nat) = 2 ^ 16 from rfl, Nat.testBit_mod_two_pow, Nat.testBit_and]
    by_cases hi : i < 16
    · have : ∀ i, i < 16 → (0xffff0000#32).toNat.testBit i = false := by decide
      rw [this i hi]; simp
    · simp [hi]
  unfold actionOnly
  rw [BitVec.toInt_eq_toNat_cond]
  split <;> omega

theorem action_le_max (r : BitVec 32) : actionOnly r ≤ (0x7fff0000#32).toInt := by
  have h := action_dvd r
  have h2 : actionOnly r < 2 ^ 31 := by
    unfold actionOnly
    have := BitVec.toInt_lt (x := r &&& 0xffff0000#32)
    simpa using this
  have h3 : (0x7fff0000#32).toInt = 2147418112 := by decide
  rw [h3]
  omega

/-- A filter never returns one of the two undefined actions between LOG and ALLOW, on any record. -/
def Sane (f : Prog) : Prop := ∀ d : SeccompData, cur f d &&& 0xffff0000#32 ≠ 0x7ffd0000#32 ∧ cur f d &&& 0xffff0000#32 ≠ 0x7ffe0000#32

theorem denied_lt {fs : List Prog} (hs : ∀ f ∈ fs, Sane f) (d : SeccompData) (h : outcome (runFilters fs d) ≠ .executed) :
    actionOnly (runFilters fs d) < (0x7ffc0000#32).toInt := by
  have hle := action_le_max (runFilters fs d)
  have hdv := action_dvd (runFilters fs d)
  rw [Ne, outcome_executed, not_or] at h
  have hsane : actionOnly (runFilters fs d) ≠ (0x7ffd0000#32).toInt ∧ actionOnly (runFilters fs d) ≠ (0x7ffe0000#32).toInt := by
    rw [Ne, Ne, action_eq_iff, action_eq_iff]
    rw [runFilters_eq]
    rcases combine_mem 0x7fff0000#32 (fs.map fun f => cur f d) with hm | hm
    · rw [hm]; decide
    · obtain ⟨f, hf, he⟩ := List.mem_map.1 hm
      rw [← he]; exact hs f hf d
  have e1 : (0x7ffc0000#32).toInt = 2147221504 := by decide
  have e2 : (0x7ffd0000#32).toInt = 2147287040 := by decide
  have e3 : (0x7ffe0000#32).toInt = 2147352576 := by decide
  have e4 : (0x7fff0000#32).toInt = 2147418112 := by decide
  rw [e1, e4] at h
  rw [e2, e3] at hsane
  rw [e4] at hle
  rw [e1]
  omega

theorem denied_suffix {old new : List Prog} (h : old <:+ new) (hs : ∀ f ∈ old, Sane f) (d : SeccompData)
    (hd : outcome (runFilters old d) ≠ .executed) : outcome (runFilters new d) ≠ .executed := by
  have h1 := action_suffix h d
  have h2 := denied_lt hs d hd
  rw [Ne, outcome_executed, not_or]
  have e1 : (0x7ffc0000#32).toInt = 2147221504 := by decide
  have e4 : (0x7fff0000#32).toInt = 2147418112 := by decide
  rw [e1] at h2
  rw [e1, e4]
  omega

/-! ## Growing threads -/

/-- `t'` has at least the filters of `t`, and no_new_privs if `t` has it. -/
def Grown (t t' : Thread) : Prop := t.filters <:+ t'.filters ∧ (t.nnp = true → t'.nnp = true)

theorem Grown.refl (t : Thread) : Grown t t := ⟨List.suffix_refl _, id⟩
theorem Grown.trans {t u v : Thread} (h : Grown t u) (h' : Grown u v) : Grown t v :=
  ⟨h.1.trans h'.1, fun x => h'.2 (h.2 x)⟩

theorem setNnp_grown (fault : Option Fault) (t : Thread) : Grown t (setNnp fault t).1 := by
  unfold setNnp
  split
  · exact .refl t
  · exact ⟨List.suffix_refl _, fun _ => rfl⟩

theorem setSeccomp_grown (fault : Option Fault) (p : Prog) (t : Thread) : Grown t (setSeccomp fault p t).1 := by
  unfold setSeccomp
  split
  · exact .refl t
  · split
    · exact .refl t
    · split
      · exact .refl t
      · split
        · exact .refl t
        · exact ⟨List.suffix_cons _ _, id⟩

theorem syscall_grown (h : Option Int) (t : Thread) (d : SeccompData) (body : Thread → Thread × Int)
    (hb : ∀ t, Grown t (body t).1) : Grown t (syscall h t d body).1 := by
  unfold syscall
  split
  · exact hb t
  · exact .refl t
  · split <;> exact .refl t
  · exact .refl t

end Kernel

namespace Pledge
open Bpfvm Kernel

theorem pledge_grown (b : Build) (env : Env) (t : Thread) (ps : List Promise) (v : SeccompReturn) :
    Grown t (pledgeOverride b env t ps v).1 := by
  unfold pledgeOverride
  split
  · exact .refl t
  · split
    · exact .refl t
    · exact .refl t
    · simp only
      have h1 := syscall_grown (env.onTrap env.trapRet.1) t (recNnp env) (setNnp env.nnpFault) (setNnp_grown _)
      split
      · exact h1
      · rename_i prog _ _ _
        have h2 := syscall_grown (env.onTrap env.trapRet.2)
          (syscall (env.onTrap env.trapRet.1) t (recNnp env) (setNnp env.nnpFault)).1 (recSeccomp env)
          (setSeccomp env.seccompFault (prog.take (prog.length % 2 ^ 16))) (setSeccomp_grown _ _)
        split <;> exact h1.trans h2

/-! ## Systems -/

theorem reap_length (s : System) (i : Nat) (pid : BitVec 32) (o : Outcome) : (reap s i pid o).length = s.length := by
  unfold reap; split <;> simp

theorem reap_get (s : System) (i : Nat) (pid : BitVec 32) (o : Outcome) (j : Nat) (t' : Thread)
    (h : (reap s i pid o)[j]? = some t') :
    ∃ t, s[j]? = some t ∧ t'.filters = t.filters ∧ t'.nnp = t.nnp ∧ t'.pid = t.pid ∧ t'.tid = t.tid ∧ (t'.alive = true → t.alive = true) := by
  unfold reap at h
  split at h
  · rw [List.getElem?_modify] at h
    cases hs : s[j]? with
    | none => simp [hs] at h
    | some t =>
      simp only [hs, Option.map_eq_map, Option.map_some, Option.some.injEq] at h
      refine ⟨t, rfl, ?_⟩
      subst h
      split <;> simp
  · rw [List.getElem?_map] at h
    cases hs : s[j]? with
    | none => simp [hs] at h
    | some t =>
      simp only [hs, Option.map_some, Option.some.injEq] at h
      refine ⟨t, rfl, ?_⟩
      subst h
      split <;> simp

theorem on_length (s : System) (i : Nat) (f : Thread → Thread × Option Outcome) : (s.on i f).length = s.length := by
  unfold System.on
  split
  · split
    · split
      · rw [reap_length, List.length_set]
      · rw [List.length_set]
    · rfl
  · rfl

/-- What one step on thread `i` does to thread `j`. -/
theorem on_get (s : System) (i : Nat) (f : Thread → Thread × Option Outcome) (j : Nat) (t' : Thread)
    (h : (s.on i f)[j]? = some t') :
    ∃ t, s[j]? = some t ∧
      ((t'.filters = t.filters ∧ t'.nnp = t.nnp) ∨
       (j = i ∧ t.alive = true ∧ t'.filters = (f t).1.filters ∧ t'.nnp = (f t).1.nnp)) := by
  unfold System.on at h
  split at h
  · rename_i t hi
    split at h
    · rename_i ha
      have key : ∀ u, (s.set i (f t).1)[j]? = some u → ∃ t0, s[j]? = some t0 ∧
          ((u.filters = t0.filters ∧ u.nnp = t0.nnp) ∨
           (j = i ∧ t0.alive = true ∧ u.filters = (f t0).1.filters ∧ u.nnp = (f t0).1.nnp)) := by
        intro u hu
        rw [List.getElem?_set] at hu
        split at hu
        · rename_i hij
          subst hij
          split at hu
          · injection hu with hu
            subst hu
            exact ⟨t, hi, .inr ⟨rfl, ha, rfl, rfl⟩⟩
          · cases hu
        · exact ⟨u, hu, .inl ⟨rfl, rfl⟩⟩
      split at h
      · obtain ⟨u, hu, h1, h2, _⟩ := reap_get _ _ _ _ _ _ h
        rw [h1, h2]
        exact key u hu
      · exact key t' h
    · exact ⟨t', h, .inl ⟨rfl, rfl⟩⟩
  · exact ⟨t', h, .inl ⟨rfl, rfl⟩⟩

theorem on_grown (s : System) (i : Nat) (f : Thread → Thread × Option Outcome) (hf : ∀ t, Grown t (f t).1) (j : Nat)
    (t' : Thread) (h : (s.on i f)[j]? = some t') : ∃ t, s[j]? = some t ∧ Grown t t' := by
  obtain ⟨t, h1, h2⟩ := on_get s i f j t' h
  refine ⟨t, h1, ?_⟩
  rcases h2 with ⟨ha, hb⟩ | ⟨_, _, ha, hb⟩
  · exact ⟨by rw [ha]; exact List.suffix_refl _, by rw [hb]; exact id⟩
  · exact ⟨by rw [ha]; exact (hf t).1, by rw [hb]; exact (hf t).2⟩

/-- A step either keeps the threads (each grown), or appends a child of thread `i` with the filters of `i`. -/
theorem step_cases (s : System) (op : Op) :
    ((s.step op).length = s.length ∧ ∀ (j : Nat) (t' : Thread), (s.step op)[j]? = some t' → ∃ t, s[j]? = some t ∧ Grown t t') ∨
    (∃ i d h pid tid t, op = .spawn i d h pid tid ∧ s[i]? = some t ∧ t.alive = true ∧ enter t d = .executed ∧
      s.step op = s ++ [{ t with pid := pid, tid := tid }]) := by
  cases op with
  | pledge i b env ps v => exact .inl ⟨on_length _ _ _, on_grown _ _ _ fun t => pledge_grown b env t ps v⟩
  | call i d h => exact .inl ⟨on_length _ _ _, on_grown _ _ _ fun t => .refl t⟩
  | setNnp i d h fault =>
    exact .inl ⟨on_length _ _ _, on_grown _ _ _ fun t => syscall_grown _ _ _ _ (setNnp_grown _)⟩
  | setSeccomp i d h fault p =>
    exact .inl ⟨on_length _ _ _, on_grown _ _ _ fun t => syscall_grown _ _ _ _ (setSeccomp_grown _ _)⟩
  | cred i a => exact .inl ⟨on_length s i (fun t => ({ t with admin := a }, none)),
      on_grown s i (fun t => ({ t with admin := a }, none)) fun t => ⟨List.suffix_refl _, id⟩⟩
  | crash i w =>
    exact .inl ⟨on_length s i (fun t => (t, some (if w then .killProcess else .killThread))),
      on_grown s i (fun t => (t, some (if w then .killProcess else .killThread))) fun t => .refl t⟩
  | spawn i d h pid tid =>
    simp only [System.step]
    split
    · rename_i t hi
      split
      · rename_i hc
        exact .inr ⟨i, d, h, pid, tid, t, rfl, hi, hc.1, hc.2, rfl⟩
      · exact .inl ⟨on_length _ _ _, on_grown _ _ _ fun t => .refl t⟩
    · exact .inl ⟨rfl, fun j t' h => ⟨t', h, .refl _⟩⟩

end Pledge

namespace Spec
open Bpfvm Kernel Pledge

/-- Along a history the filters of all heirs only grow. -/
theorem heirs_grown (ops : List Op) (s : System) (own : List Nat) (t : Thread)
    (hown : ∀ j ∈ own, ∀ u, s[j]? = some u → Grown t u) (hlt : ∀ j ∈ own, j < s.length) :
    ∀ j ∈ heirs s ops own, ∀ u, (s.run ops)[j]? = some u → Grown t u := by
  induction ops generalizing s own with
  | nil => exact hown
  | cons op ops ih =>
    have hrun : s.run (op :: ops) = (s.step op).run ops := rfl
    rw [hrun]
    rcases step_cases s op with ⟨hl, hg⟩ | ⟨i, d, h, pid, tid, ti, rfl, hi, ha, he, hs⟩
    · have hsame : heirs s (op :: ops) own = heirs (s.step op) ops own := by
        simp only [heirs]
        split
        · rw [if_neg (by omega)]
        · rfl
      rw [hsame]
      refine ih (s.step op) own ?_ (by rw [hl]; exact hlt)
      intro j hj u hu
      obtain ⟨t0, h0, h1⟩ := hg j u hu
      exact (hown j hj t0 h0).trans h1
    · simp only [heirs]
      have hlen : (s.step (.spawn i d h pid tid)).length = s.length + 1 := by rw [hs]; simp
      apply ih
      · intro j hj u hu
        rw [hs] at hu
        by_cases hjl : j < s.length
        · rw [List.getElem?_append_left hjl] at hu
          split at hj
          · simp only [List.mem_cons] at hj
            rcases hj with rfl | hj
            · omega
            · exact hown j hj u hu
          · exact hown j hj u hu
        · split at hj
          · rename_i hc
            simp only [List.mem_cons] at hj
            rcases hj with rfl | hj
            · rw [List.getElem?_append_right (Nat.le_refl _)] at hu
              simp at hu
              have := hown i hc.1 ti hi
              subst hu
              exact this
            · exact absurd (hlt j hj) hjl
          · exact absurd (hlt j hj) hjl
      · intro j hj
        rw [hlen]
        split at hj
        · simp only [List.mem_cons] at hj
          rcases hj with rfl | hj
          · omega
          · have := hlt j hj; omega
        · have := hlt j hj; omega

/-! ## Threads that have pledged -/

theorem hasPledged_iff (t : Thread) (l : List Past) :
    HasPledged t l ↔ t.filters = l.map fun p => progOf p.ids p.ps p.v.toU32 := by
  unfold HasPledged
  simp only [promisesToProg_eq]
  constructor
  · intro h
    have : (t.filters.map Res.ok : List (Res PledgeError (List SockFilter))) =
        (l.map fun p => progOf p.ids p.ps p.v.toU32).map Res.ok := by
      rw [h]; simp [List.map_map]
    have hinj : ∀ (a b : List (List SockFilter)), (a.map Res.ok : List (Res PledgeError (List SockFilter))) = b.map Res.ok →
        a = b := by
      intro a
      induction a with
      | nil => intro b hb; cases b with
        | nil => rfl
        | cons x b => simp at hb
      | cons x a ih => intro b hb; cases b with
        | nil => simp at hb
        | cons y b =>
          simp only [List.map_cons, List.cons.injEq, Res.ok.injEq] at hb
          rw [hb.1, ih b hb.2]
    exact hinj _ _ this
  · intro h
    rw [h]; simp [List.map_map]

theorem cur_progOf (ids : Ids) (ps : List Promise) (v : BitVec 32) (d : SeccompData) :
    cur (progOf ids ps v) d = verdict ids ps v d := by
  unfold cur; rw [run_progOf]; rfl

theorem past_verdict (p : Past) (d : SeccompData) : p.verdict d = some (verdict p.ids p.ps p.v.toU32 d) := by
  unfold Past.verdict; rw [filterVerdict_eq]

theorem runFilters_pledged {t : Thread} {l : List Past} (h : HasPledged t l) (d : SeccompData) :
    runFilters t.filters d = combine 0x7fff0000#32 (l.map fun p => verdict p.ids p.ps p.v.toU32 d) := by
  rw [(hasPledged_iff t l).1 h, runFilters_eq, List.map_map]
  congr 1
  apply List.map_congr_left
  intro p _
  exact cur_progOf _ _ _ _

/-! ## The four system calls of pledge_override itself -/

theorem low_append (a b : BitVec 32) : (a ++ b).setWidth 32 = b := by
  apply BitVec.eq_of_getLsbD_eq
  intro i hi
  rw [BitVec.getLsbD_setWidth, BitVec.getLsbD_append]
  simp [hi]

open Classical in
/-- Every pledge filter treats the four system calls of `pledge_override` alike: permitted with StdIO, otherwise a violation. -/
theorem verdict_own (ids : Ids) (ps : List Promise) (v : BitVec 32) (env : Env) (d : SeccompData)
    (hd : d = recGetpid env ∨ d = recGettid env ∨ d = recNnp env ∨ d = recSeccomp env) :
    verdict ids ps v d = if .StdIO ∈ ps then 0x7fff0000#32 else v := by
  have harch : d.arch = X86_64 := by rcases hd with rfl | rfl | rfl | rfl <;> rfl
  have key : Allowed ids ps d ↔ .StdIO ∈ ps := by
    rcases hd with rfl | rfl | rfl | rfl
    · rw [allowed_iff (n := 39) rfl (by decide)]
      have hf : freeOf 39 = [.StdIO] := by decide +kernel
      simp [hf, ruleAt]
    · rw [allowed_iff (n := 186) rfl (by decide)]
      have hf : freeOf 186 = [.StdIO] := by decide +kernel
      simp [hf, ruleAt]
    · rw [allowed_iff (n := 157) rfl (by decide)]
      have hf : freeOf 157 = [] := by decide +kernel
      have ha : arg (recNnp env) 0 = 38#32 := low_append _ _
      simp [hf, ruleAt, ha]
    · rw [allowed_iff (n := 157) rfl (by decide)]
      have hf : freeOf 157 = [] := by decide +kernel
      have ha : arg (recSeccomp env) 0 = 22#32 := low_append _ _
      simp [hf, ruleAt, ha]
  by_cases h : .StdIO ∈ ps
  · rw [if_pos h, verdict_allowed harch (key.2 h)]; rfl
  · rw [if_neg h, verdict_denied harch (fun h' => h (key.1 h'))]

theorem enter_own {t : Thread} {l : List Past} (h : HasPledged t l) (env env' : Env) (d : SeccompData)
    (hd : d = recGetpid env ∨ d = recGettid env ∨ d = recNnp env ∨ d = recSeccomp env) :
    enter t d = enter t (recNnp env') := by
  unfold enter
  rw [runFilters_pledged h, runFilters_pledged h]
  congr 2
  apply List.map_congr_left
  intro p _
  rw [verdict_own p.ids p.ps _ env d hd, verdict_own p.ids p.ps _ env' (recNnp env') (.inr (.inr (.inl rfl)))]

theorem asksIds_iff (ps : List Promise) : asksIds ps = true ↔ .StdIO ∈ ps := by
  unfold asksIds
  rw [List.any_eq_true]
  have hall : ∀ p, (match lookupPromise p with
      | some fs => fs.contains .KillSelf || fs.contains .TkillSelf
      | none => false) = true ↔ p = .StdIO := by
    intro p; cases p <;> decide +kernel
  constructor
  · rintro ⟨p, hp, h⟩
    have h := (hall p).1 h
    subst h
    simpa using hp
  · intro h
    exact ⟨.StdIO, by simp [h], (hall _).2 rfl⟩

/-! ## pledge_override as a whole -/

/-- The length limit, and the truncation to sixteen bits. -/
theorem setSeccomp_seen (ids : Ids) (ps : List Promise) (v : BitVec 32) (t : Thread) (hn : t.nnp = true) :
    setSeccomp none ((progOf ids ps v).take ((progOf ids ps v).length % 2 ^ 16)) t =
      if (progOf ids ps v).length ≤ 4096 then ({ t with filters := progOf ids ps v :: t.filters }, 0) else (t, -22) := by
  have hpos : 0 < (progOf ids ps v).length := by rw [progOf_length]; omega
  generalize hp : progOf ids ps v = prog at *
  have hacc := accepts_progOf ids ps v
  have hpre := accepts_prefix ids ps v
  rw [hp] at hacc hpre
  unfold setSeccomp
  simp only
  by_cases hl : prog.length ≤ 4096
  · have hm : prog.length % 2 ^ 16 = prog.length := Nat.mod_eq_of_lt (by omega)
    rw [hm, List.take_length, if_pos hl, if_neg (by simp only [maxInsns]; omega), if_neg (by simp [hn]), if_neg]
    rw [hacc]; simp [maxInsns, hl]
  · rw [if_neg hl]
    by_cases hb : prog.length < 2 ^ 16
    · rw [Nat.mod_eq_of_lt hb, List.take_length, if_pos (by simp only [maxInsns]; omega)]; rfl
    · have hlt : prog.length % 2 ^ 16 < prog.length := by
        have := Nat.mod_lt prog.length (show 0 < 2 ^ 16 by decide)
        omega
      split
      · rfl
      · rw [if_neg (by simp [hn]), if_pos (hpre _ hlt)]; rfl

theorem checkRet_err (s : Nat) (e : Fault) : checkRet s (.ret (-((e.val : Int) + 1))) = some (.err (.SysErr (e.val + 1))) := by
  have := e.isLt
  unfold checkRet
  simp only
  rw [if_pos (by omega), show (-((e.val : Int) + 1)).natAbs = e.val + 1 by omega]

theorem checkRet_zero (s : Nat) : checkRet s (.ret 0) = none := by simp [checkRet]

/-- The error number of an `ERRNO` verdict of a filter, at most 4095. -/
theorem checkRet_neg (s n : Nat) (h : n ≤ 4095) (h0 : n ≠ 0) : checkRet s (.ret (-(n : Int))) = some (.err (.SysErr n)) := by
  unfold checkRet
  simp only
  rw [if_pos (by omega), show (-(n : Int)).natAbs = n by omega]

/-- ... which is at most 4095 indeed. -/
theorem errno_le {r : BitVec 32} {n : Nat} (h : outcome r = .errno n) : n ≤ 4095 := by
  unfold outcome at h
  simp only at h
  repeat' split at h
  all_goals first
    | (injection h with h; omega)
    | cases h

/-- What the wrapper makes of a result that is not an error number of the kernel. -/
theorem checkRet_ok_iff (s : Nat) (v : Int) : checkRet s (.ret v) = none ↔ v % 2 ^ 32 = 0 := by
  unfold checkRet
  simp only
  split
  · rename_i h
    constructor
    · intro h'; cases h'
    · intro h'; omega
  · split <;> simp_all

/-- If the four calls are executed, this is what `pledge_override` does. -/
theorem pledge_executed (b : Build) (env : Env) (t : Thread) (ps : List Promise) (v : SeccompReturn) (l : List Past)
    (hl : HasPledged t l) (he : enter t (recNnp env) = .executed) :
    pledgeOverride b env t ps v =
      match env.nnpFault with
      | some e => (t, .err (.SysErr (e.val + 1)))
      | none =>
        match env.seccompFault with
        | some e => ({ t with nnp := true }, .err (.SysErr (e.val + 1)))
        | none =>
          if (progOf ⟨t.pid, t.tid⟩ ps v.toU32).length ≤ 4096 then
            ({ t with nnp := true, filters := progOf ⟨t.pid, t.tid⟩ ps v.toU32 :: t.filters }, .ok)
          else ({ t with nnp := true }, .err (.SysErr 22)) := by
  have e1 : enter t (recGetpid env) = .executed := by rw [enter_own hl env env _ (.inl rfl), he]
  have e2 : enter t (recGettid env) = .executed := by rw [enter_own hl env env _ (.inr (.inl rfl)), he]
  have e3 : ∀ t' : Thread, t'.filters = t.filters → enter t' (recSeccomp env) = .executed := by
    intro t' ht'
    rw [enter, ht', ← enter, enter_own hl env env _ (.inr (.inr (.inr rfl))), he]
  have hids : askIds env t ps = .ok ⟨t.pid, t.tid⟩ := by
    unfold askIds askId
    rw [e1, e2]
    simp
  unfold pledgeOverride
  rw [hids]
  simp only [promisesToProg_eq]
  cases hn : env.nnpFault with
  | some e => simp only [syscall, he, setNnp, checkRet_err]
  | none =>
    simp only [syscall, he, setNnp, checkRet_zero]
    rw [e3 { t with nnp := true } rfl]
    cases hs : env.seccompFault with
    | some e => simp only [setSeccomp, checkRet_err]
    | none =>
      rw [setSeccomp_seen ⟨t.pid, t.tid⟩ ps v.toU32 { t with nnp := true } rfl]
      by_cases hlen : (progOf ⟨t.pid, t.tid⟩ ps v.toU32).length ≤ 4096
      · simp only [if_pos hlen, checkRet_zero]
      · simp only [if_neg hlen]
        rw [show (-22 : Int) = -((22 : Nat) : Int) from rfl, checkRet_neg _ _ (by decide) (by decide)]

/-- If they are not executed, no filter is installed and no_new_privs is not set. -/
theorem pledge_not_executed (b : Build) (env : Env) (t : Thread) (ps : List Promise) (v : SeccompReturn) (l : List Past)
    (hl : HasPledged t l) (he : enter t (recNnp env) ≠ .executed) : (pledgeOverride b env t ps v).1 = t := by
  have e3 : enter t (recSeccomp env) ≠ .executed := by
    rw [enter_own hl env env _ (.inr (.inr (.inr rfl)))]; exact he
  have hs : ∀ h d body, enter t d ≠ .executed → (syscall h t d body).1 = t := by
    intro h d body hd
    unfold syscall
    split
    · contradiction
    · rfl
    · split <;> rfl
    · rfl
  unfold pledgeOverride
  split
  · rfl
  · split
    · rfl
    · rfl
    · simp only
      rw [hs _ _ _ he]
      split
      · rfl
      · split <;> exact hs _ _ _ e3

end Spec
