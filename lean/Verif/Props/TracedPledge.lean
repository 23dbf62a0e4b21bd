import Verif.Props.Traced
import Verif.Props.Result

/-!
# C106: pledging in a traced thread
-/
set_option autoImplicit false

namespace Props
open Pledge Bpfvm Spec Kernel

theorem runFilters_own {t : Thread} {l : List Past} (h : HasPledged t l) (env env' : Env) (d : SeccompData)
    (hd : d = recGetpid env ∨ d = recGettid env ∨ d = recNnp env ∨ d = recSeccomp env) :
    runFilters t.filters d = runFilters t.filters (recNnp env') := by
  rw [runFilters_pledged h, runFilters_pledged h]
  congr 1
  apply List.map_congr_left
  intro p _
  rw [verdict_own p.ids p.ps _ env d hd, verdict_own p.ids p.ps _ env' (recNnp env') (.inr (.inr (.inl rfl)))]

theorem told_own {t : Thread} {l : List Past} (h : HasPledged t l) (env env' : Env) (d : SeccompData)
    (hd : d = recGetpid env ∨ d = recGettid env ∨ d = recNnp env ∨ d = recSeccomp env) :
    told t d = told t (recNnp env') := by
  unfold told
  rw [runFilters_own h env env' d hd]

theorem told_filters {t u : Thread} (h : u.filters = t.filters) (d : SeccompData) : told u d = told t d := by
  unfold told
  rw [h]

theorem told_some {t : Thread} {d : SeccompData} {m : BitVec 16} (h : told t d = some m) : wantsTrace (runFilters t.filters d) = true := by
  unfold told at h
  simp only at h
  split at h
  · assumption
  · cases h

theorem syscallTraced_unasked (h : Option Int) (w : Wish) (t : Thread) (d : SeccompData) (body : Thread → Thread × Int)
    (hu : told t d = none) : syscallTraced h w t d body = syscall h t d body := by
  unfold syscallTraced syscall
  rw [C105_unasked _ _ _ hu]
  cases enter t d <;> rfl

theorem syscallTraced_pass (h : Option Int) (t : Thread) (d : SeccompData) (body : Thread → Thread × Int) (m : BitVec 16)
    (ha : told t d = some m) : syscallTraced h .pass t d body = ((body t).1, .ret (body t).2) := by
  unfold syscallTraced enterTraced
  simp only [told_some ha, if_true]

theorem syscallTraced_skip (h : Option Int) (t : Thread) (d : SeccompData) (body : Thread → Thread × Int) (m : BitVec 16) (x : Int)
    (ha : told t d = some m) : syscallTraced h (.skip x) t d body = (t, .ret x) := by
  unfold syscallTraced enterTraced
  simp only [told_some ha, if_true]

theorem askIdTraced_unasked (env : Env) (w : Wish) (t : Thread) (d : SeccompData) (real fail : BitVec 32) (hu : told t d = none) :
    askIdTraced env w t d real fail = askId env t d real fail := by
  unfold askIdTraced
  rw [hu]

/-- C106: a tracer that is not asked about the library's calls has no influence on `pledge_override`. -/
theorem C106_unasked (b : Build) (env : Env) (w : Fin 4 → Wish) (t : Thread) (l : List Past) (hl : HasPledged t l) (ps : List Promise)
    (v : SeccompReturn) (hu : told t (recNnp env) = none) : pledgeTraced b env w t ps v = pledgeOverride b env t ps v := by
  have h0 : told t (recGetpid env) = none := by rw [told_own hl env env _ (.inl rfl), hu]
  have h1 : told t (recGettid env) = none := by rw [told_own hl env env _ (.inr (.inl rfl)), hu]
  have h3 : told t (recSeccomp env) = none := by rw [told_own hl env env _ (.inr (.inr (.inr rfl))), hu]
  have hids : askIdsTraced env w t ps = askIds env t ps := by
    unfold askIdsTraced askIds
    rw [askIdTraced_unasked _ _ _ _ _ _ h0, askIdTraced_unasked _ _ _ _ _ _ h1]
    rfl
  unfold pledgeTraced pledgeOverride
  rw [hids]
  simp only [syscallTraced_unasked _ _ _ _ _ hu]
  have h3' : told (syscall (env.onTrap env.trapRet.1) t (recNnp env) (setNnp env.nnpFault)).1 (recSeccomp env) = none := by
    rw [told_filters (syscall_nnp_filters _ _ _ _), h3]
  simp only [syscallTraced_unasked _ _ _ _ _ h3']
  rfl

/-- Not vacuous: a thread that has pledged with `Trap`. -/
example (w : Fin 4 → Wish) := C106_unasked ⟨true⟩ calm w ({ thread0 with nnp := true, filters := [progOf ⟨100, 100⟩ [.StdIO] (.Trap : SeccompReturn).toU32] }) [⟨⟨100, 100⟩, [.StdIO], .Trap⟩] ((hasPledged_iff _ _).2 rfl) [.RPath] .Log (C105_no_trace _ [⟨⟨100, 100⟩, [.StdIO], .Trap⟩] ((hasPledged_iff _ _).2 rfl) (by simp [PayloadFits]) (by simp) _)

/-- C106: when it is asked. Every earlier pledge has StdIO, or lets its violations pass, or tells the tracer; and one tells the tracer. -/
theorem C106_asked (env : Env) (t : Thread) (l : List Past) (hl : HasPledged t l) (hv : ∀ p ∈ l, PayloadFits p.v) :
    (∃ m, told t (recNnp env) = some m) ↔
      (∀ p ∈ l, .StdIO ∈ p.ps ∨ Loose p.v ∨ ∃ m, AsksTracer p.v m) ∧ ∃ p ∈ l, .StdIO ∉ p.ps ∧ ∃ m, AsksTracer p.v m := by
  have hown : ∀ p : Past, (Allows p.ids p.ps (recNnp env) ↔ .StdIO ∈ p.ps) ∧ (Denies p.ids p.ps (recNnp env) ↔ .StdIO ∉ p.ps) := by
    intro p
    have hw := fun v : BitVec 32 => verdict_own p.ids p.ps v env (recNnp env) (.inr (.inr (.inl rfl)))
    have h0 := hw 0
    rcases verdict_three p.ids p.ps 0 (recNnp env) with ⟨h1, h2⟩ | ⟨h1, h2⟩ | ⟨h1, _⟩
    · rw [h0] at h2
      by_cases hs : Promise.StdIO ∈ p.ps
      · exact ⟨⟨fun _ => hs, fun _ => h1⟩, ⟨fun h => (not_both h1 h).elim, fun h => absurd hs h⟩⟩
      · rw [if_neg hs] at h2; exact absurd h2 (by decide)
    · rw [h0] at h2
      by_cases hs : Promise.StdIO ∈ p.ps
      · rw [if_pos hs] at h2; exact absurd h2 (by decide)
      · exact ⟨⟨fun h => (not_both h h1).elim, fun h => absurd h hs⟩, ⟨fun _ => hs, fun _ => h1⟩⟩
    · exact absurd rfl h1
  have hp : ∀ p : Past, Passes p (recNnp env) ↔ .StdIO ∈ p.ps ∨ .StdIO ∉ p.ps ∧ Loose p.v := by
    intro p; unfold Passes; rw [(hown p).1, (hown p).2]
  have ht : ∀ (p : Past) m, Tells p (recNnp env) m ↔ .StdIO ∉ p.ps ∧ AsksTracer p.v m := by
    intro p m; unfold Tells; rw [(hown p).2]
  constructor
  · rintro ⟨m, h⟩
    obtain ⟨newer, p, older, rfl, h1, h2, h3⟩ := (C105_asked t l hl hv _ m).1 h
    rw [ht] at h1
    refine ⟨?_, p, by simp, h1.1, m, h1.2⟩
    intro r hr
    rcases List.mem_append.1 hr with hr | hr
    · rcases (hp r).1 (h2 r hr) with h | h
      · exact .inl h
      · exact .inr (.inl h.2)
    · rcases List.mem_cons.1 hr with rfl | hr
      · exact .inr (.inr ⟨m, h1.2⟩)
      · rcases h3 r hr with h | ⟨m', h⟩
        · rcases (hp r).1 h with h | h
          · exact .inl h
          · exact .inr (.inl h.2)
        · exact .inr (.inr ⟨m', ((ht r m').1 h).2⟩)
  · rintro ⟨hall, p, hpl, hps, m, hm⟩
    have hsoft : ∀ r ∈ l, Passes r (recNnp env) ∨ ∃ m, Tells r (recNnp env) m := by
      intro r hr
      by_cases hs : Promise.StdIO ∈ r.ps
      · exact .inl ((hp r).2 (.inl hs))
      · rcases hall r hr with h | h | ⟨m, h⟩
        · exact absurd h hs
        · exact .inl ((hp r).2 (.inr ⟨hs, h⟩))
        · exact .inr ⟨m, (ht r m).2 ⟨hs, h⟩⟩
    obtain ⟨newer, q, older, h1, ⟨m', h2⟩, h3⟩ := first_split (fun p => ∃ m, Tells p (recNnp env) m) l ⟨p, hpl, m, (ht p m).2 ⟨hps, hm⟩⟩
    exact ⟨m', (C105_asked t l hl hv _ m').2 ⟨newer, q, older, h1, h2,
      fun r hr => (hsoft r (by rw [h1]; simp [hr])).resolve_right (h3 r hr), fun r hr => hsoft r (by rw [h1]; simp [hr])⟩⟩

theorem askIdsTraced_asked (env : Env) (w : Fin 4 → Wish) (t : Thread) (l : List Past) (hl : HasPledged t l) (ps : List Promise)
    (m : BitVec 16) (ha : told t (recNnp env) = some m) : askIdsTraced env w t ps = .ok (wishedIds w t ps) := by
  have h0 : told t (recGetpid env) = some m := by rw [told_own hl env env _ (.inl rfl), ha]
  have h1 : told t (recGettid env) = some m := by rw [told_own hl env env _ (.inr (.inl rfl)), ha]
  have hq : ∀ w t d real fail, told t d = some m → askIdTraced env w t d real fail = .ok (wished real w) := by
    intro w t d real fail h
    unfold askIdTraced
    rw [h]
    cases w <;> rfl
  unfold askIdsTraced wishedIds
  rw [hq _ _ _ _ _ h0, hq _ _ _ _ _ h1]
  by_cases hs : Promise.StdIO ∈ ps
  · rw [if_pos ((asksIds_iff ps).2 hs), if_pos hs]
  · rw [if_neg (fun h => hs ((asksIds_iff ps).1 h)), if_neg hs]

/-- C106: a tracer that is asked and lets the four calls pass: `pledge_override` does what it does in a thread without any filter, and
the earlier filters stay. -/
theorem C106_passed (b : Build) (env : Env) (t : Thread) (l : List Past) (hl : HasPledged t l) (ps : List Promise) (v : SeccompReturn)
    (m : BitVec 16) (ha : told t (recNnp env) = some m) :
    pledgeTraced b env (fun _ => .pass) t ps v =
      let r := pledgeOverride b env { t with filters := [] } ps v
      ({ r.1 with filters := r.1.filters ++ t.filters }, r.2) := by
  have h3 : told t (recSeccomp env) = some m := by rw [told_own hl env env _ (.inr (.inr (.inr rfl))), ha]
  have hids : wishedIds (fun _ => .pass) t ps = ⟨t.pid, t.tid⟩ := by unfold wishedIds wished; split <;> rfl
  rw [pledge_executed b env { t with filters := [] } ps v [] rfl (show outcome 0x7fff0000#32 = .executed by decide)]
  unfold pledgeTraced
  rw [askIdsTraced_asked env _ t l hl ps m ha, hids]
  simp only [promisesToProg_eq, syscallTraced_pass _ _ _ _ m ha]
  cases hn : env.nnpFault with
  | some e => simp only [setNnp, checkRet_err]; rfl
  | none =>
    simp only [setNnp, checkRet_zero]
    rw [syscallTraced_pass _ { t with nnp := true } _ _ m h3]
    cases hs : env.seccompFault with
    | some e => simp only [setSeccomp, checkRet_err]; rfl
    | none =>
      simp only
      rw [setSeccomp_seen ⟨t.pid, t.tid⟩ ps v.toU32 { t with nnp := true } rfl]
      by_cases hlen : (progOf ⟨t.pid, t.tid⟩ ps v.toU32).length ≤ 4096
      · simp only [if_pos hlen, checkRet_zero]; rfl
      · simp only [if_neg hlen]
        rw [show (-22 : Int) = -((22 : Nat) : Int) from rfl, checkRet_neg _ _ (by decide) (by decide)]
        rfl

/-- C106: a tracer that is asked cannot take a filter away, nor no_new_privs, nor can one that is not asked. -/
theorem C106_only_adds (b : Build) (env : Env) (w : Fin 4 → Wish) (t : Thread) (ps : List Promise) (v : SeccompReturn) :
    t.filters <:+ (pledgeTraced b env w t ps v).1.filters ∧ (t.nnp = true → (pledgeTraced b env w t ps v).1.nnp = true) := by
  show Grown t (pledgeTraced b env w t ps v).1
  have hg : ∀ h w t d body, (∀ t, Grown t (body t).1) → Grown t (syscallTraced h w t d body).1 := by
    intro h w t d body hb
    unfold syscallTraced
    split
    · exact hb t
    · exact .refl t
    · split <;> exact .refl t
    · exact .refl t
    · exact .refl t
  unfold pledgeTraced
  split
  · exact .refl t
  · split
    · exact .refl t
    · exact .refl t
    · simp only
      have h1 := hg (env.onTrap env.trapRet.1) (w 2) t (recNnp env) (setNnp env.nnpFault) (setNnp_grown _)
      split
      · exact h1
      · rename_i prog _ _ _
        have h2 := hg (env.onTrap env.trapRet.2) (w 3)
          (syscallTraced (env.onTrap env.trapRet.1) (w 2) t (recNnp env) (setNnp env.nnpFault)).1 (recSeccomp env)
          (setSeccomp env.seccompFault (prog.take (prog.length % 2 ^ 16))) (setSeccomp_grown _ _)
        split <;> exact h1.trans h2

/-- C106: a tracer that is asked can make `pledge_override` return Ok without any effect. -/
theorem C106_faked (b : Build) (env : Env) (w : Fin 4 → Wish) (t : Thread) (l : List Past) (hl : HasPledged t l) (ps : List Promise)
    (v : SeccompReturn) (m : BitVec 16) (ha : told t (recNnp env) = some m) (h2 : w 2 = .skip 0) (h3 : w 3 = .skip 0) :
    pledgeTraced b env w t ps v = (t, .ok) := by
  have ha3 : told t (recSeccomp env) = some m := by rw [told_own hl env env _ (.inr (.inr (.inr rfl))), ha]
  unfold pledgeTraced
  rw [askIdsTraced_asked env _ t l hl ps m ha, h2, h3]
  simp only [promisesToProg_eq, syscallTraced_skip _ _ _ _ m _ ha, checkRet_zero, syscallTraced_skip _ _ _ _ m _ ha3]

theorem checkRet_not_ok (s : Nat) (r : CallRes) : checkRet s r ≠ some .ok := by
  unfold checkRet
  intro h
  split at h
  · cases h
  · split at h
    · cases h
    · split at h <;> cases h

theorem setSeccomp_zero {f : Option Fault} {p : Prog} {t t' : Thread} {x : Int} (h : setSeccomp f p t = (t', x)) (hx : x % 2 ^ 32 = 0) :
    f = none ∧ t'.filters = p :: t.filters ∧ (setSeccomp none p { t with nnp := true }).2 = 0 := by
  unfold setSeccomp at h ⊢
  cases f with
  | some e =>
    have := e.isLt
    simp only [Prod.mk.injEq] at h
    omega
  | none =>
    simp only at h ⊢
    by_cases h1 : p.length = 0 ∨ maxInsns < p.length
    · rw [if_pos h1] at h; simp only [Prod.mk.injEq, EINVAL] at h; omega
    · rw [if_neg h1] at h ⊢
      by_cases h2 : t.nnp = false ∧ t.admin = false
      · rw [if_pos h2] at h; simp only [Prod.mk.injEq, EACCES] at h; omega
      · rw [if_neg h2] at h
        rw [if_neg (by simp)]
        by_cases h3 : accepts p = false
        · rw [if_pos h3] at h; simp only [Prod.mk.injEq, EINVAL] at h; omega
        · rw [if_neg h3] at h ⊢
          simp only [Prod.mk.injEq] at h
          refine ⟨trivial, ?_, rfl⟩
          rw [← h.1]

/-- C106: what Ok means if the tracer is asked. Either the tracer let the last call pass, and there is one more filter, made from the
ids as the tracer let them be seen; or the tracer skipped that call, made it look successful, and there is no new filter. -/
theorem C106_ok (b : Build) (env : Env) (w : Fin 4 → Wish) (t t' : Thread) (l : List Past) (hl : HasPledged t l) (ps : List Promise)
    (v : SeccompReturn) (m : BitVec 16) (ha : told t (recNnp env) = some m) (hok : pledgeTraced b env w t ps v = (t', .ok)) :
    (w 3 = .pass ∧ HasPledged t' (⟨wishedIds w t ps, ps, v⟩ :: l)) ∨ (∃ x, w 3 = .skip x ∧ x % 2 ^ 32 = 0 ∧ t'.filters = t.filters) := by
  unfold pledgeTraced at hok
  rw [askIdsTraced_asked env _ t l hl ps m ha] at hok
  simp only [promisesToProg_eq] at hok
  generalize hr1 : syscallTraced (env.onTrap env.trapRet.1) (w 2) t (recNnp env) (setNnp env.nnpFault) = r1 at hok
  have hf1 : r1.1.filters = t.filters := by
    rw [← hr1]
    cases hw : w 2 with
    | pass => rw [syscallTraced_pass _ _ _ _ m ha]; unfold setNnp; cases env.nnpFault <;> rfl
    | skip x => rw [syscallTraced_skip _ _ _ _ m _ ha]
  have ha3 : told r1.1 (recSeccomp env) = some m := by
    rw [told_filters hf1, told_own hl env env _ (.inr (.inr (.inr rfl))), ha]
  cases h1 : checkRet env.errno.1 r1.2 with
  | some e =>
    rw [h1] at hok
    simp only [Prod.mk.injEq] at hok
    rw [hok.2] at h1
    exact absurd h1 (checkRet_not_ok _ _)
  | none =>
    rw [h1] at hok
    simp only at hok
    cases hw : w 3 with
    | skip x =>
      rw [hw, syscallTraced_skip _ _ _ _ m _ ha3] at hok
      simp only at hok
      cases h2 : checkRet env.errno.2 (.ret x) with
      | some e =>
        rw [h2] at hok
        simp only [Prod.mk.injEq] at hok
        rw [hok.2] at h2
        exact absurd h2 (checkRet_not_ok _ _)
      | none =>
        rw [h2] at hok
        simp only [Prod.mk.injEq, and_true] at hok
        exact .inr ⟨x, rfl, (checkRet_ok_iff _ _).1 h2, by rw [← hok, hf1]⟩
    | pass =>
      left
      refine ⟨rfl, ?_⟩
      rw [hw, syscallTraced_pass _ _ _ _ m ha3] at hok
      simp only at hok
      generalize hp : progOf (wishedIds w t ps) ps v.toU32 = prog at hok
      generalize hr2 : setSeccomp env.seccompFault (prog.take (prog.length % 2 ^ 16)) r1.1 = r2 at hok
      cases h2 : checkRet env.errno.2 (.ret r2.2) with
      | some e =>
        rw [h2] at hok
        simp only [Prod.mk.injEq] at hok
        rw [hok.2] at h2
        exact absurd h2 (checkRet_not_ok _ _)
      | none =>
        rw [h2] at hok
        simp only [Prod.mk.injEq, and_true] at hok
        have hx := (checkRet_ok_iff _ _).1 h2
        obtain ⟨u, x⟩ := r2
        simp only at hok hx
        subst hok
        obtain ⟨_, hfil, hz⟩ := setSeccomp_zero hr2 hx
        have hseen := setSeccomp_seen (wishedIds w t ps) ps v.toU32 { r1.1 with nnp := true } rfl
        rw [hp] at hseen
        rw [hseen] at hz
        have hlen : prog.length ≤ 4096 := by
          by_cases h : prog.length ≤ 4096
          · exact h
          · rw [if_neg h] at hz; exact absurd (show (-22 : Int) = 0 from hz) (by decide)
        rw [Nat.mod_eq_of_lt (by omega), List.take_length, hf1] at hfil
        unfold HasPledged at hl ⊢
        rw [hfil, List.map_cons, List.map_cons, hl, promisesToProg_eq, hp]

/-- A thread that pledged RPath with violation Trace(7), under a tracer: the tracer is asked about the library's calls, with 7. It can let
a second pledge be made, fake it, or have it made for a process that does not exist. -/
def traced0 : Thread := { thread0 with nnp := true, filters := [progOf ⟨100, 100⟩ [.RPath] (SeccompReturn.Trace 7).toU32] }

theorem traced0_pledged : HasPledged traced0 [⟨⟨100, 100⟩, [.RPath], .Trace 7⟩] := (hasPledged_iff _ _).2 rfl

theorem traced0_told : told traced0 (recNnp calm) = some 7#16 := by
  unfold told
  rw [runFilters_pledged traced0_pledged]
  simp only [List.map_cons, List.map_nil]
  rw [verdict_own _ _ _ calm _ (.inr (.inr (.inl rfl))), if_neg (c := Promise.StdIO ∈ _) (by decide)]
  decide

example (b : Build) (ps : List Promise) (v : SeccompReturn) : pledgeTraced b calm (fun _ => .skip 0) traced0 ps v = (traced0, .ok) :=
  C106_faked b calm _ _ _ traced0_pledged ps v _ traced0_told rfl rfl

example (b : Build) (w : Fin 4 → Wish) (h0 : w 0 = .skip 1) (h1 : w 1 = .pass) (h3 : w 3 = .pass) (t' : Thread)
    (hok : pledgeTraced b calm w traced0 [.StdIO] .KillProcess = (t', .ok)) :
    HasPledged t' [⟨⟨1, 100⟩, [.StdIO], .KillProcess⟩, ⟨⟨100, 100⟩, [.RPath], .Trace 7⟩] := by
  rcases C106_ok b calm w traced0 t' _ traced0_pledged [.StdIO] .KillProcess _ traced0_told hok with ⟨_, h⟩ | ⟨x, h, _⟩
  · have : wishedIds w traced0 [.StdIO] = ⟨1, 100⟩ := by unfold wishedIds; rw [h0, h1]; rfl
    rw [this] at h
    exact h
  · rw [h3] at h; cases h

example (b : Build) : (pledgeTraced b calm (fun _ => .pass) traced0 [.StdIO] .KillProcess).2 = .ok := by
  rw [C106_passed b calm _ _ traced0_pledged _ _ _ traced0_told]
  simp only
  rw [pledge_executed b calm { traced0 with filters := [] } _ _ [] rfl (show outcome 0x7fff0000#32 = .executed by decide)]
  have : (progOf ⟨100, 100⟩ [.StdIO] SeccompReturn.KillProcess.toU32).length ≤ 4096 := by
    rw [size_progOf]; decide +kernel
  show (if (progOf ⟨100, 100⟩ [.StdIO] SeccompReturn.KillProcess.toU32).length ≤ 4096 then _ else _ : Thread × PledgeRes).2 = .ok
  rw [if_pos this]

/-- With StdIO in the earlier pledge the tracer is not asked; with an earlier KillProcess pledge without StdIO it is not asked either. -/
example (t : Thread) (hl : HasPledged t [⟨⟨100, 100⟩, [.StdIO], .Trace 7⟩]) : told t (recNnp calm) = none := by
  cases h : told t (recNnp calm) with
  | none => rfl
  | some m =>
    obtain ⟨_, p, hp, hs, _⟩ := (C106_asked calm t _ hl (by simp [PayloadFits])).1 ⟨m, h⟩
    simp only [List.mem_singleton] at hp
    subst hp
    exact absurd (List.mem_singleton.2 rfl) hs

end Props
