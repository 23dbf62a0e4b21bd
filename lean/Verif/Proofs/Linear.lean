import Verif.Spec.Linear
import Verif.Proofs.Signals
import Verif.Props.Reduce
import Verif.Props.Ids

/-!
# Runs with signal handlers, as histories
-/
set_option autoImplicit false

namespace Spec
open Pledge Bpfvm Kernel Props

/-- The library's own calls are executed. -/
def Runs (t : Thread) : Prop := ∀ env, enter t (recNnp env) = .executed

theorem runs_iff {t : Thread} {l : List Past} (hl : HasPledged t l) (env : Env) : Runs t ↔ enter t (recNnp env) = .executed :=
  ⟨fun h => h env, fun h env' => by rw [← h]; exact enter_own hl env' env _ (.inr (.inr (.inl rfl)))⟩

/-- A call in progress by thread `t` is on its way: if the library's calls are executed now, they were all the time. -/
def OnWay (t : Thread) (a : Act) : Prop :=
  match a.phase with
  | .start => True
  | .making _ rest codes => Runs t → ∃ done, done ++ rest = allFilters a.ps ∧ codes = done.map (frag ⟨t.pid, t.tid⟩)
  | .armed prog => Runs t → t.nnp = true ∧ a.env.nnpFault = none ∧ prog = progOf ⟨t.pid, t.tid⟩ a.ps a.v.toU32

theorem OnWay.mono {t t' : Thread} {a : Act} (h : OnWay t a) (hp : t'.pid = t.pid) (ht : t'.tid = t.tid)
    (hn : t.nnp = true → t'.nnp = true) (hr : Runs t' → Runs t) : OnWay t' a := by
  unfold OnWay at *
  split
  · trivial
  · rename_i h1
    rw [h1] at h
    intro hr'
    rw [hp, ht]
    exact h (hr hr')
  · rename_i h1
    rw [h1] at h
    intro hr'
    rw [hp, ht]
    obtain ⟨g1, g2⟩ := h (hr hr')
    exact ⟨hn g1, g2⟩

theorem runs_same {t t' : Thread} (h : t'.filters = t.filters) : Runs t' → Runs t := by
  intro hr env
  have := hr env
  unfold enter at *
  rwa [h] at this

/-- What a pledge does to a thread that has pledged. -/
theorem pledge_keeps (b : Build) (env : Env) (t : Thread) (ps : List Promise) (v : SeccompReturn) (l : List Past) (hl : HasPledged t l) :
    (∃ l', HasPledged (pledgeOverride b env t ps v).1 l') ∧ (Runs (pledgeOverride b env t ps v).1 → Runs t) := by
  by_cases he : enter t (recNnp env) = .executed
  · refine ⟨?_, fun _ => (runs_iff hl env).2 he⟩
    rw [pledge_executed b env t ps v l hl he]
    repeat' split
    all_goals first
      | exact ⟨l, hl⟩
      | exact ⟨l, (hasPledged_iff _ _).2 ((hasPledged_iff _ _).1 hl)⟩
      | (refine ⟨⟨⟨t.pid, t.tid⟩, ps, v⟩ :: l, ?_⟩
         rw [hasPledged_iff]
         simp [(hasPledged_iff _ _).1 hl])
  · rw [pledge_not_executed b env t ps v l hl he]
    exact ⟨⟨l, hl⟩, id⟩

/-- The environments a history may use for a call. -/
def Near (env env0 : Env) : Prop := env = env0 ∨ env = { env0 with trapRet := (0, env0.trapRet.2) }

/-- The next step of a call in progress, as steps of a history. -/
theorem next_linear {t : Thread} {a : Act} {l : List Past} (hl : HasPledged t l) (hw : OnWay t a) :
    (∀ t' a', a.next t = (t', .inl a') →
      a'.b = a.b ∧ a'.env = a.env ∧ a'.ps = a.ps ∧ a'.v = a.v ∧ OnWay t' a' ∧
      (t' = t ∨ t' = (syscall (a.env.onTrap a.env.trapRet.1) t (recNnp a.env) (setNnp a.env.nnpFault)).1 ∧
        deathOf (syscall (a.env.onTrap a.env.trapRet.1) t (recNnp a.env) (setNnp a.env.nnpFault)).2 = none)) ∧
    (∀ t' r, a.next t = (t', .inr r) → ∃ env, Near env a.env ∧ pledgeOverride a.b env t a.ps a.v = (t', r)) := by
  obtain ⟨b, env, q, ps, v, phase⟩ := a
  have hq := fun k => enter_query hl env (q k)
  have died : ∀ o, (o = .killThread ∨ o = .killProcess ∨ o = .trap ∧ env.handler = false) → enter t (recNnp env) = o →
      pledgeOverride b env t ps v = (t, .died o) := by
    intro o ho he
    rw [C64_refused b env t ps v l hl (by rw [he]; rcases ho with rfl | rfl | ⟨rfl, _⟩ <;> exact fun h => by cases h), he]
    rcases ho with rfl | rfl | ⟨rfl, hh⟩
    · rfl
    · rfl
    · simp [refusedResult, hh]
  cases phase with
  | start =>
    simp only [Act.next, mapM_filters]
    refine ⟨fun t' a' h => ?_, fun t' r h => ?_⟩
    · simp only [Prod.mk.injEq, Sum.inl.injEq] at h
      obtain ⟨rfl, rfl⟩ := h
      exact ⟨rfl, rfl, rfl, rfl, fun _ => ⟨[], rfl, rfl⟩, .inl rfl⟩
    · simp at h
  | making k rest codes =>
    cases rest with
    | cons f rest =>
      have one : (∃ code, (fragBy b env.handler t (q k) f).2 = .ok (.ok code) ∧ (Runs t → code = frag ⟨t.pid, t.tid⟩ f)) ∨
          (∃ o, (fragBy b env.handler t (q k) f).2 = .error o ∧ (o = .killThread ∨ o = .killProcess ∨ o = .trap ∧ env.handler = false) ∧
            enter t (recNnp env) = o) := by
        have nr : ∀ o, o ≠ .executed → enter t (recNnp env) = o → ¬ Runs t := by
          intro o ho he hr
          exact ho (he.symm.trans (hr env))
        by_cases hk : f = .KillSelf
        · subst hk
          simp only [fragBy, (hq k).1, filterToBpf_eq]
          cases ho : enter t (recNnp env) with
          | executed => exact .inl ⟨_, rfl, fun _ => rfl⟩
          | errno n => exact .inl ⟨_, rfl, fun hr => absurd hr (nr _ (by simp) ho)⟩
          | trap =>
            cases hh : env.handler with
            | true => exact .inl ⟨_, rfl, fun hr => absurd hr (nr _ (by simp) ho)⟩
            | false => exact .inr ⟨_, rfl, .inr (.inr ⟨rfl, rfl⟩), rfl⟩
          | killThread => exact .inr ⟨_, rfl, .inl rfl, rfl⟩
          | killProcess => exact .inr ⟨_, rfl, .inr (.inl rfl), rfl⟩
        · by_cases ht : f = .TkillSelf
          · subst ht
            simp only [fragBy, (hq k).2, filterToBpf_eq]
            cases ho : enter t (recNnp env) with
            | executed => exact .inl ⟨_, rfl, fun _ => rfl⟩
            | errno n => exact .inl ⟨_, rfl, fun hr => absurd hr (nr _ (by simp) ho)⟩
            | trap =>
              cases hh : env.handler with
              | true => exact .inl ⟨_, rfl, fun hr => absurd hr (nr _ (by simp) ho)⟩
              | false => exact .inr ⟨_, rfl, .inr (.inr ⟨rfl, rfl⟩), rfl⟩
            | killThread => exact .inr ⟨_, rfl, .inl rfl, rfl⟩
            | killProcess => exact .inr ⟨_, rfl, .inr (.inl rfl), rfl⟩
          · refine .inl ⟨frag ⟨0, 0⟩ f, ?_, fun _ => frag_noid _ _ f ⟨hk, ht⟩⟩
            cases f <;> first | exact absurd rfl hk | exact absurd rfl ht | (simp only [fragBy, filterToBpf_eq]; done)
      simp only [Act.next]
      rcases one with ⟨code, h1, h2⟩ | ⟨o, h1, h2, h3⟩
      · rw [h1]
        refine ⟨fun t' a' h => ?_, fun t' r h => ?_⟩
        · simp only [Prod.mk.injEq, Sum.inl.injEq] at h
          obtain ⟨rfl, rfl⟩ := h
          refine ⟨rfl, rfl, rfl, rfl, fun hr => ?_, .inl rfl⟩
          obtain ⟨done, g1, g2⟩ := hw hr
          refine ⟨done ++ [f], by simpa using g1, ?_⟩
          rw [g2, h2 hr, List.map_append]
          rfl
        · simp at h
      · rw [h1]
        refine ⟨fun t' a' h => by simp at h, fun t' r h => ?_⟩
        simp only [Prod.mk.injEq, Sum.inr.injEq] at h
        obtain ⟨rfl, rfl⟩ := h
        exact ⟨env, .inl rfl, died o h2 h3⟩
    | nil =>
      simp only [Act.next, bpfHeader_eq, bpfFooter_eq]
      refine ⟨fun t' a' h => ?_, fun t' r h => ?_⟩
      · split at h
        · simp at h
        · rename_i hc
          simp only [Prod.mk.injEq, Sum.inl.injEq] at h
          obtain ⟨rfl, rfl⟩ := h
          obtain ⟨x, hx, hx0⟩ := checkRet_none hc
          refine ⟨rfl, rfl, rfl, rfl, fun hr => ?_, .inr ⟨rfl, by rw [hx]; rfl⟩⟩
          have hr0 : Runs t := runs_same (nnp_fields _ t _ _).2.2.1 hr
          obtain ⟨done, g1, g2⟩ := hw hr0
          have he := hr0 env
          have hf : env.nnpFault = none := by
            cases hf : env.nnpFault with
            | none => rfl
            | some e =>
              rw [hf] at hc
              simp [syscall, he, setNnp, checkRet_err] at hc
          have e1 : (syscall (env.onTrap env.trapRet.1) t (recNnp env) (setNnp env.nnpFault)).1 = { t with nnp := true } := by
            simp [syscall, he, setNnp, hf]
          rw [e1]
          refine ⟨rfl, hf, ?_⟩
          rw [List.append_nil] at g1
          subst g1
          rw [g2]
          simp [progOf, header, body]
      · split at h
        · rename_i e hc
          simp only [Prod.mk.injEq, Sum.inr.injEq] at h
          obtain ⟨rfl, rfl⟩ := h
          refine ⟨env, .inl rfl, ?_⟩
          by_cases he : enter t (recNnp env) = .executed
          · rw [pledge_executed b env t ps v l hl he]
            cases hf : env.nnpFault with
            | none =>
              rw [hf] at hc
              simp [syscall, he, setNnp, checkRet_zero] at hc
            | some e =>
              rw [hf] at hc
              simp [syscall, he, setNnp, checkRet_err] at hc
              subst hc
              simp [syscall, he, setNnp]
          · rw [C64_refused b env t ps v l hl he]
            cases ho : enter t (recNnp env) with
            | executed => exact absurd ho he
            | errno n =>
              cases n with
              | zero => simp [syscall, ho, checkRet_zero] at hc
              | succ n =>
                simp only [syscall, ho, checkRet_neg _ (n + 1) (errno_le ho) (by omega), Option.some.injEq] at hc
                subst hc
                simp [syscall, ho, refusedResult]
            | trap =>
              cases hh : env.handler with
              | false =>
                simp [syscall, ho, Env.onTrap, hh, checkRet] at hc
                subst hc
                simp [syscall, ho, Env.onTrap, hh, refusedResult]
              | true =>
                simp only [syscall, ho, Env.onTrap, hh] at hc
                cases hp : reported env.errno.1 env.trapRet.1 with
                | none => simp [checkRet_reported, hp] at hc
                | some e' =>
                  simp [checkRet_reported, hp] at hc
                  subst hc
                  simp [syscall, ho, Env.onTrap, hh, refusedResult, hp]
            | killThread =>
              simp [syscall, ho, checkRet] at hc
              subst hc
              simp [syscall, ho, refusedResult]
            | killProcess =>
              simp [syscall, ho, checkRet] at hc
              subst hc
              simp [syscall, ho, refusedResult]
        · simp at h
  | armed prog =>
    have e3 : enter t (recSeccomp env) = enter t (recNnp env) := enter_own hl env env _ (.inr (.inr (.inr rfl)))
    simp only [Act.next]
    refine ⟨fun t' a' h => by split at h <;> simp at h, fun t' r h => ?_⟩
    by_cases he : enter t (recNnp env) = .executed
    · obtain ⟨g1, g2, g3⟩ := hw ((runs_iff hl env).2 he)
      simp only at g1 g2 g3
      refine ⟨env, .inl rfl, ?_⟩
      have hself : ({ t with nnp := true } : Thread) = t := by
        cases t
        simp only at g1
        subst g1
        rfl
      rw [pledge_executed b env t ps v l hl he, g2, hself]
      subst g3
      cases hs : env.seccompFault with
      | some e =>
        simp only [syscall, e3, he, hs, setSeccomp, checkRet_err] at h
        simp only [Prod.mk.injEq, Sum.inr.injEq] at h
        obtain ⟨rfl, rfl⟩ := h
        rfl
      | none =>
        simp only [syscall, e3, he, hs, setSeccomp_seen ⟨t.pid, t.tid⟩ ps v.toU32 t g1] at h
        by_cases hlen : (progOf ⟨t.pid, t.tid⟩ ps v.toU32).length ≤ 4096
        · simp only [if_pos hlen, checkRet_zero] at h ⊢
          simp only [Prod.mk.injEq, Sum.inr.injEq] at h
          obtain ⟨rfl, rfl⟩ := h
          rw [g1]
        · simp only [if_neg hlen] at h ⊢
          rw [show (-22 : Int) = -((22 : Nat) : Int) from rfl, checkRet_neg _ _ (by decide) (by decide)] at h
          simp only [Prod.mk.injEq, Sum.inr.injEq] at h
          obtain ⟨rfl, rfl⟩ := h
          rfl
    · refine ⟨{ env with trapRet := (0, env.trapRet.2) }, .inr rfl, ?_⟩
      have he' : enter t (recNnp { env with trapRet := (0, env.trapRet.2) }) = enter t (recNnp env) := rfl
      rw [C64_refused b _ t ps v l hl (by rw [he']; exact he), he']
      cases ho : enter t (recNnp env) with
      | executed => exact absurd ho he
      | errno n =>
        cases n with
        | zero =>
          simp [syscall, e3, ho, checkRet_zero] at h
          obtain ⟨rfl, rfl⟩ := h
          rfl
        | succ n =>
          simp only [syscall, e3, ho, checkRet_neg _ (n + 1) (errno_le ho) (by omega), Prod.mk.injEq, Sum.inr.injEq] at h
          obtain ⟨rfl, rfl⟩ := h
          rfl
      | trap =>
        cases hh : env.handler with
        | false =>
          simp [syscall, e3, ho, Env.onTrap, hh, checkRet] at h
          obtain ⟨rfl, rfl⟩ := h
          simp [refusedResult]
        | true =>
          have h0 : reported env.errno.1 0 = none := by simp [reported]
          simp only [syscall, e3, ho, Env.onTrap, hh, if_true, checkRet_reported] at h
          cases hp : reported env.errno.2 env.trapRet.2 with
          | none =>
            simp [hp] at h
            obtain ⟨rfl, rfl⟩ := h
            simp [refusedResult, h0, hp]
          | some e' =>
            simp [hp] at h
            obtain ⟨rfl, rfl⟩ := h
            simp [refusedResult, h0, hp]
      | killThread =>
        simp [syscall, e3, ho, checkRet] at h
        obtain ⟨rfl, rfl⟩ := h
        rfl
      | killProcess =>
        simp [syscall, e3, ho, checkRet] at h
        obtain ⟨rfl, rfl⟩ := h
        rfl

/-! ## one move -/

theorem wild_threads (w : Wild) (s : System) (hl : s.length = w.length) : (w.withThreads s).threads = s := by
  apply List.ext_getElem?
  intro k
  unfold Wild.threads Wild.withThreads
  rw [List.getElem?_map, List.getElem?_zipWith]
  by_cases hk : k < s.length
  · rw [List.getElem?_eq_getElem hk, List.getElem?_eq_getElem (by omega)]
    rfl
  · rw [List.getElem?_eq_none (l := s) (by omega), List.getElem?_eq_none (l := w) (by omega)]
    rfl

theorem wild_set (w : Wild) (i : Nat) (sl : Busy) : Wild.threads (w.set i sl) = w.threads.set i sl.thread := by
  unfold Wild.threads
  rw [List.map_set]

theorem set_self {s : System} {i : Nat} {t : Thread} (h : s[i]? = some t) : s.set i t = s := by
  apply List.ext_getElem?
  intro k
  rw [List.getElem?_set]
  split
  · rename_i hk
    subst hk
    rw [h]
    split
    · rfl
    · rename_i hn
      rw [List.getElem?_eq_none (by omega)] at h
      cases h
  · rfl

/-- What is known about slot `k`: `E` tells with what calls may have been made. -/
def SlotLin (E : Nat → Build → Env → List Promise → SeccompReturn → Prop) (k : Nat) (sl : Busy) : Prop :=
  (∃ l, HasPledged sl.thread l) ∧ ∀ a ∈ sl.acts, E k a.b a.env a.ps a.v ∧ OnWay sl.thread a

def LinOK (E : Nat → Build → Env → List Promise → SeccompReturn → Prop) (w : Wild) : Prop :=
  ∀ (k : Nat) (sl : Busy), w[k]? = some sl → SlotLin E k sl

section
variable {E : Nat → Build → Env → List Promise → SeccompReturn → Prop}

theorem lin_set {w : Wild} {i : Nat} {sl : Busy} (h : LinOK E w) (hs : SlotLin E i sl) : LinOK E (w.set i sl) := by
  intro k x hx
  rw [List.getElem?_set] at hx
  split at hx
  · rename_i hk
    subst hk
    split at hx
    · cases hx
      exact hs
    · cases hx
  · exact h k x hx

theorem SlotLin.lift {k : Nat} {sl : Busy} {t' : Thread} (h : SlotLin E k sl) (h1 : t'.pid = sl.thread.pid) (h2 : t'.tid = sl.thread.tid)
    (h3 : t'.filters = sl.thread.filters) (h4 : sl.thread.nnp = true → t'.nnp = true) : SlotLin E k { sl with thread := t' } := by
  obtain ⟨⟨l, hl⟩, h⟩ := h
  refine ⟨⟨l, ?_⟩, fun a ha => ⟨(h a ha).1, (h a ha).2.mono h1 h2 h4 (runs_same h3)⟩⟩
  unfold HasPledged at *
  rw [h3]
  exact hl

theorem lin_withThreads {w : Wild} {s : System} (h : LinOK E w)
    (hs : ∀ (j : Nat) (t' : Thread), s[j]? = some t' → ∃ t : Thread, w.threads[j]? = some t ∧ t'.pid = t.pid ∧ t'.tid = t.tid ∧ t'.filters = t.filters ∧
      (t.nnp = true → t'.nnp = true)) : LinOK E (w.withThreads s) := by
  intro j sl hj
  obtain ⟨sl0, t', h1, h2, rfl⟩ := withThreads_get hj
  obtain ⟨t, g1, g2, g3, g4, g5⟩ := hs j t' h2
  rw [threads_get h1] at g1
  cases g1
  exact (h j sl0 h1).lift g2 g3 g4 g5

end

/-- Every move is no step or one step of a history. -/
theorem move_linear {ms : List Move} {w : Wild} (h : LinOK (fun k b env ps v => ∃ q, .enter k b env q ps v ∈ ms) w) {m : Move} (hm : m ∈ ms)
    (hl : ∀ i d h f p, m ≠ .other (.setSeccomp i d h f p))
    (hf : ∀ i d h pid tid, m = .fork i d h pid tid true → ∀ sl, w[i]? = some sl → sl.acts = []) :
    ∃ ops, w.threads.run ops = (w.step m).threads ∧ results w.threads ops = endOf w m ∧ (∀ op ∈ ops, StandsFor ms op) ∧
      LinOK (fun k b env ps v => ∃ q, .enter k b env q ps v ∈ ms) (w.step m) := by
  have wlen : w.threads.length = w.length := List.length_map _
  cases m with
  | enter i b env q ps v =>
    refine ⟨[], ?_, rfl, by simp, ?_⟩
    · simp only [Wild.step, System.run, List.foldl]
      split
      · rename_i sl hi
        split
        · rw [wild_set, set_self (threads_get hi)]
        · rfl
      · rfl
    · simp only [Wild.step]
      split
      · rename_i sl hi
        split
        · refine lin_set h ⟨(h i sl hi).1, fun a ha => ?_⟩
          rcases List.mem_cons.1 ha with rfl | ha
          · exact ⟨⟨q, hm⟩, trivial⟩
          · exact (h i sl hi).2 a ha
        · exact h
      · exact h
  | leave i =>
    refine ⟨[], ?_, rfl, by simp, ?_⟩
    · simp only [Wild.step, System.run, List.foldl]
      split
      · rename_i sl hi
        split
        · rw [wild_set, set_self (threads_get hi)]
        · rfl
      · rfl
    · simp only [Wild.step]
      split
      · rename_i sl hi
        split
        · exact lin_set h ⟨(h i sl hi).1, fun a ha => (h i sl hi).2 a (List.mem_of_mem_tail ha)⟩
        · exact h
      · exact h
  | go i =>
    simp only [Wild.step]
    split
    · rename_i t a rest line hi
      obtain ⟨⟨l, hpl⟩, hacts⟩ := h i _ hi
      obtain ⟨⟨q, hfrom⟩, hway⟩ := hacts a (by simp)
      simp only at hpl hway
      by_cases ha : t.alive = true
      · simp only [if_pos ha]
        obtain ⟨n1, n2⟩ := next_linear hpl hway
        have ti : w.threads[i]? = some t := threads_get hi
        cases hn : a.next t with
        | mk t' x =>
          cases x with
          | inl a' =>
            obtain ⟨e1, e2, e3, e4, hw', hstep⟩ := n1 t' a' hn
            have keep : t'.pid = t.pid ∧ t'.tid = t.tid ∧ t'.filters = t.filters ∧ (t.nnp = true → t'.nnp = true) := by
              rcases hstep with rfl | ⟨rfl, _⟩
              · exact ⟨rfl, rfl, rfl, id⟩
              · exact nnp_fields _ t _ _
            have hok : LinOK (fun k b env ps v => ∃ q, .enter k b env q ps v ∈ ms) (w.set i ⟨t', a' :: rest, line⟩) := by
              refine lin_set h ⟨⟨l, ?_⟩, fun x hx => ?_⟩
              · unfold HasPledged at *
                rw [keep.2.2.1]
                exact hpl
              · rcases List.mem_cons.1 hx with rfl | hx
                · exact ⟨⟨q, by rw [e1, e2, e3, e4]; exact hfrom⟩, hw'⟩
                · have := hacts x (List.mem_cons_of_mem _ hx)
                  exact ⟨this.1, this.2.mono keep.1 keep.2.1 keep.2.2.2 (runs_same keep.2.2.1)⟩
            rcases hstep with rfl | ⟨rfl, hd⟩
            · refine ⟨[], ?_, by simp [endOf, hi, ha, hn, results], by simp, hok⟩
              rw [wild_set, set_self ti]
              rfl
            · refine ⟨[.setNnp i (recNnp a.env) (a.env.onTrap a.env.trapRet.1) a.env.nnpFault], ?_, by simp [endOf, hi, ha, hn, results, resultOf], ?_, hok⟩
              · rw [wild_set]
                simp only [System.run, List.foldl, System.step, System.on, ti, if_pos ha, hd]
              · intro op hop
                rw [List.mem_singleton.1 hop]
                exact .inr ⟨a.b, a.env, q, a.ps, a.v, hfrom, rfl, rfl, rfl⟩
          | inr r =>
            obtain ⟨env, hnear, hp⟩ := n2 t' r hn
            have keep := pledge_keeps a.b env t a.ps a.v l hpl
            have ids := pledge_ids a.b env t a.ps a.v
            have grown := pledge_grown a.b env t a.ps a.v
            rw [hp] at keep ids grown
            have hok : LinOK (fun k b env ps v => ∃ q, .enter k b env q ps v ∈ ms) (w.set i ⟨t', rest, line⟩) := by
              refine lin_set h ⟨keep.1, fun x hx => ?_⟩
              have := hacts x (List.mem_cons_of_mem _ hx)
              exact ⟨this.1, this.2.mono ids.1 ids.2 grown.2 keep.2⟩
            refine ⟨[.pledge i a.b env a.ps a.v], ?_, ?_, ?_, ?_⟩
            · simp only [System.run, List.foldl, System.step, System.on, ti, if_pos ha, hp]
              cases r.death with
              | none => rw [wild_set]
              | some o =>
                rw [wild_threads _ _ (by rw [reap_length]; simp [Wild.threads]), wild_set]
            · simp [endOf, hi, hn, results, resultOf, ti, ha, hp]
            · intro op hop
              rw [List.mem_singleton.1 hop]
              exact ⟨a.env, q, hfrom, hnear⟩
            · simp only
              cases r.death with
              | none => exact hok
              | some o =>
                refine lin_withThreads hok fun j u hu => ?_
                obtain ⟨u0, g1, g2, g3, g4, g5, _⟩ := reap_get _ _ _ _ _ _ hu
                exact ⟨u0, g1, g4, g5, g2, by rw [g3]; exact id⟩
      · simp only [if_neg ha]
        exact ⟨[], rfl, by simp [endOf, hi, ha, results], by simp, h⟩
    · refine ⟨[], rfl, ?_, by simp, h⟩
      simp only [endOf]
      rfl
  | fork i d h' pid tid copies =>
    simp only [Wild.step, endOf]
    refine ⟨[.spawn i d h' pid tid], ?_, rfl, fun op hop => by rw [List.mem_singleton.1 hop]; exact ⟨copies, hm⟩, ?_⟩
    · simp only [System.run, List.foldl, System.step]
      cases hi : w[i]? with
      | none =>
        have : w.threads[i]? = none := by unfold Wild.threads; rw [List.getElem?_map, hi]; rfl
        rw [this]
      | some sl =>
        rw [threads_get hi]
        simp only
        split
        · simp [Wild.threads]
        · rw [wild_threads]
          rw [on_length, wlen]
    · split
      · rename_i sl hi
        split
        · intro k x hx
          rw [List.getElem?_append] at hx
          split at hx
          · exact h k x hx
          · have hx' := List.mem_of_getElem? hx
            rw [List.mem_singleton.1 hx']
            refine ⟨(h i sl hi).1, fun a ha => ?_⟩
            cases copies with
            | false => simp at ha
            | true =>
              simp only [if_true, hf i d h' pid tid rfl sl hi] at ha
              cases ha
        · exact lin_withThreads h fun j t' ht => op_same _ _ (by simp) (by simp) (by simp) j t' ht
      · exact h
  | other op =>
    have key : (∀ i b env ps v, op ≠ .pledge i b env ps v) → (∀ i d h pid tid, op ≠ .spawn i d h pid tid) →
        w.threads.run [op] = (w.withThreads (w.threads.step op)).threads ∧ results w.threads [op] = [] ∧
        LinOK (fun k b env ps v => ∃ q, .enter k b env q ps v ∈ ms) (w.withThreads (w.threads.step op)) := by
      intro h1 h2
      refine ⟨?_, ?_, lin_withThreads h fun j t' ht => op_same _ _ h1 h2 (fun i d h' f p he => hl i d h' f p (by rw [he])) j t' ht⟩
      · rw [wild_threads]
        · rfl
        · cases op with
          | pledge i b env ps v => exact absurd rfl (h1 i b env ps v)
          | spawn i d h' pid tid => exact absurd rfl (h2 i d h' pid tid)
          | _ => simp only [System.step, on_length, wlen]
      · cases op with
        | pledge i b env ps v => exact absurd rfl (h1 i b env ps v)
        | _ => rfl
    cases op with
    | pledge i b env ps v => exact ⟨[], rfl, rfl, by simp, h⟩
    | spawn i d h' pid tid => exact ⟨[], rfl, rfl, by simp, h⟩
    | setNnp i d h' f =>
      obtain ⟨k1, k2, k3⟩ := key (by simp) (by simp)
      exact ⟨_, k1, k2, fun op hop => by rw [List.mem_singleton.1 hop]; exact .inl hm, k3⟩
    | _ =>
      obtain ⟨k1, k2, k3⟩ := key (by simp) (by simp)
      exact ⟨_, k1, k2, fun op hop => by rw [List.mem_singleton.1 hop]; exact hm, k3⟩

theorem results_append (s : System) (a b : List Op) : results s (a ++ b) = results s a ++ results (s.run a) b := by
  induction a generalizing s with
  | nil => rfl
  | cons op a ih => rw [List.cons_append, results, results, ih, List.append_assoc]; rfl

theorem run_append (s : System) (a b : List Op) : s.run (a ++ b) = (s.run a).run b := by
  unfold System.run
  rw [List.foldl_append]

theorem run_linear (all : List Move) (ms : List Move) : ∀ {w : Wild}, LinOK (fun k b env ps v => ∃ q, .enter k b env q ps v ∈ all) w →
    (∀ m ∈ ms, m ∈ all) → OnlyLibrary ms → NoFork w ms →
    ∃ ops, w.threads.run ops = (w.run ms).threads ∧ results w.threads ops = ends w ms ∧ ∀ op ∈ ops, StandsFor all op := by
  induction ms with
  | nil => intro w h _ _ _; exact ⟨[], rfl, rfl, by simp⟩
  | cons m ms ih =>
    intro w h hall hl hf
    obtain ⟨ops1, a1, a2, a3, a4⟩ := move_linear h (hall m (by simp)) (hl m (by simp)) (by
      intro i d h' pid tid hm
      subst hm
      exact hf.1)
    obtain ⟨ops2, b1, b2, b3⟩ := ih a4 (fun x hx => hall x (List.mem_cons_of_mem _ hx)) (fun x hx => hl x (List.mem_cons_of_mem _ hx)) hf.2
    refine ⟨ops1 ++ ops2, ?_, ?_, fun op hop => ?_⟩
    · rw [run_append, a1, b1]
      rfl
    · rw [results_append, a1, a2, b2]
      rfl
    · rcases List.mem_append.1 hop with h | h
      · exact a3 op h
      · exact b3 op h

end Spec
