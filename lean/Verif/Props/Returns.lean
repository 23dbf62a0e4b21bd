import Verif.Spec.Returns
import Verif.Props.Alone
import Verif.Props.AllocExact
import Verif.Props.Full

/-!
# C111: how calls of `pledge_override` end amid everything

`Pledge.World`: the model with everything at once (Model/Full). `Spec.nextResult`: the result with which the innermost call of a thread
ends in its next step (Spec/Returns).
-/
set_option autoImplicit false

namespace Props
open Spec Pledge Bpfvm Kernel

/-! ## one step of a call -/

theorem askKeys_cases (h : Bool) (t : Thread) (s : Seed) :
    askKeys h t s = .ok () ∨ (∃ o, askKeys h t s = .error (.died o)) ∨
    (askKeys h t s = .error .panic ∧ s.fallback = .panics ∧
      ((∃ n, enter t s.getrandom = .errno n) ∨ enter t s.getrandom = .trap ∧ h = true)) := by
  unfold askKeys
  dsimp only
  cases he : enter t s.getrandom with
  | executed => exact .inl rfl
  | errno n =>
    cases hf : s.fallback with
    | recovers => exact .inl rfl
    | panics => exact .inr (.inr ⟨rfl, rfl, .inl ⟨n, rfl⟩⟩)
    | dies o => exact .inr (.inl ⟨o, rfl⟩)
  | trap =>
    cases h with
    | false => exact .inr (.inl ⟨_, rfl⟩)
    | true =>
      cases hf : s.fallback with
      | recovers => exact .inl rfl
      | panics => exact .inr (.inr ⟨rfl, rfl, .inr ⟨rfl, rfl⟩⟩)
      | dies o => exact .inr (.inl ⟨o, rfl⟩)
  | killThread => exact .inr (.inl ⟨_, rfl⟩)
  | killProcess => exact .inr (.inl ⟨_, rfl⟩)

/-- How a step of a call ends the call. -/
theorem next_cases (a : Act) (t : Thread) :
    ((a.next t).1.filters = t.filters ∧ ∃ a', (a.next t).2 = .inl a' ∧ a'.b = a.b ∧ a'.env = a.env ∧ a'.q = a.q ∧ a'.ps = a.ps ∧ a'.v = a.v) ∨
    (a.next t).2 = .inr .ok ∨
    ((a.next t).1.filters = t.filters ∧ ∃ n, (a.next t).2 = .inr (.err (.SysErr n))) ∨
    ((a.next t).1.filters = t.filters ∧ ∃ d, (a.next t).2 = .inr (.died (enter t d)) ∧ Fatal a.env.handler (enter t d) ∧
      ((∃ k, d = (a.q k).getpid ∨ d = (a.q k).gettid) ∨ d = recNnp a.env ∨ d = recSeccomp a.env)) := by
  have chk : ∀ (h : Option Int) (d : SeccompData) (body : Thread → Thread × Int) (st : Nat) (hd : h.isSome = a.env.handler),
      (∀ u : Thread, (body u).1.filters = u.filters ∨ (body u).2 = 0) →
      (checkRet st (syscall h t d body).2 = none) ∨
      ((syscall h t d body).1.filters = t.filters ∧ ((∃ n, checkRet st (syscall h t d body).2 = some (.err (.SysErr n))) ∨
        (checkRet st (syscall h t d body).2 = some (.died (enter t d)) ∧ Fatal a.env.handler (enter t d)))) := by
    intro h d body st hd hb
    have ret : ∀ v : Int, checkRet st (.ret v) = none ∨ ∃ n, checkRet st (.ret v) = some (.err (.SysErr n)) := by
      intro v
      simp only [checkRet]
      split
      · exact .inr ⟨_, rfl⟩
      · split
        · exact .inl rfl
        · exact .inr ⟨_, rfl⟩
    unfold syscall
    split
    · dsimp only
      rcases hb t with h1 | h1
      · rcases ret (body t).2 with h2 | h2
        · exact .inl h2
        · exact .inr ⟨h1, .inl h2⟩
      · rw [h1]; exact .inl rfl
    · dsimp only
      rename_i n _
      rcases ret (-(n : Int)) with h2 | h2
      · exact .inl h2
      · exact .inr ⟨rfl, .inl h2⟩
    · rename_i he
      split
      · rename_i v
        rcases ret v with h2 | h2
        · exact .inl h2
        · exact .inr ⟨rfl, .inl h2⟩
      · refine .inr ⟨rfl, .inr ⟨?_, ?_⟩⟩
        · simp [checkRet, he]
        · rw [he]
          refine .inr (.inr ⟨rfl, ?_⟩)
          rw [← hd]; rfl
    · rename_i o h1 h2 h3
      refine .inr ⟨rfl, .inr ⟨by simp [checkRet], ?_⟩⟩
      cases he : enter t d with
      | executed => exact absurd he h1
      | errno n => exact absurd he (h2 n)
      | trap => exact absurd he h3
      | killThread => exact .inl rfl
      | killProcess => exact .inr (.inl rfl)
  have htrap : ∀ r, (a.env.onTrap r).isSome = a.env.handler := by
    intro r; unfold Env.onTrap; cases a.env.handler <;> rfl
  obtain ⟨b, env, q, ps, v, ph⟩ := a
  cases ph with
  | start =>
    left
    simp only [Act.next, mapM_filters]
    exact ⟨trivial, _, rfl, rfl, rfl, rfl, rfl, rfl⟩
  | making k fs codes =>
    cases fs with
    | cons f fs =>
      rw [frag_step]
      by_cases hq : ∀ d, (match some f with | some .KillSelf => some (q k).getpid | some .TkillSelf => some (q k).gettid | _ => none) = some d →
          ¬ Fatal env.handler (enter t d)
      · obtain ⟨code, hc⟩ := (fragBy_query b env.handler t q k f).2 hq
        rw [hc]
        exact .inl ⟨rfl, _, rfl, rfl, rfl, rfl, rfl, rfl⟩
      · simp only [Classical.not_forall, Classical.not_not] at hq
        obtain ⟨d, hd, hfat⟩ := hq
        rw [(fragBy_query b env.handler t q k f).1 d hd hfat]
        refine .inr (.inr (.inr ⟨rfl, d, rfl, hfat, .inl ⟨k, ?_⟩⟩))
        cases f <;> simp only [Option.some.injEq, reduceCtorEq] at hd
        · exact .inl hd.symm
        · exact .inr hd.symm
    | nil =>
      have hn := end_step (env := env) (q := q) (ps := ps) (t := t) (k := k) (codes := codes) (bpfHeader_eq b) (bpfFooter_eq b v)
      dsimp only at hn
      have hc := chk _ (recNnp env) (setNnp env.nnpFault) env.errno.1 (htrap env.trapRet.1)
        (fun u => .inl (by unfold setNnp; split <;> rfl))
      have hfl := nnp_fields (env.onTrap env.trapRet.1) t (recNnp env) env.nnpFault
      dsimp only at hc
      rcases hc with hc | ⟨h1, ⟨n, hc⟩ | ⟨hc, hf⟩⟩
      · rw [hc] at hn
        rw [hn]
        exact .inl ⟨hfl.2.2.1, _, rfl, rfl, rfl, rfl, rfl, rfl⟩
      · rw [hc] at hn
        rw [hn]
        exact .inr (.inr (.inl ⟨h1, n, rfl⟩))
      · rw [hc] at hn
        rw [hn]
        exact .inr (.inr (.inr ⟨h1, _, rfl, hf, .inr (.inl rfl)⟩))
  | armed prog =>
    rw [armed_step]
    dsimp only
    have hc := chk _ (recSeccomp env) (setSeccomp env.seccompFault (prog.take (prog.length % 2 ^ 16))) env.errno.2 (htrap env.trapRet.2)
      (fun u => by
        unfold setSeccomp
        split
        · exact .inl rfl
        · split
          · exact .inl rfl
          · split
            · exact .inl rfl
            · split
              · exact .inl rfl
              · exact .inr rfl)
    dsimp only at hc
    rcases hc with hc | ⟨h1, ⟨n, hc⟩ | ⟨hc, hf⟩⟩
    · rw [hc]; exact .inr (.inl rfl)
    · rw [hc]; exact .inr (.inr (.inl ⟨h1, n, rfl⟩))
    · rw [hc]; exact .inr (.inr (.inr ⟨h1, _, rfl, hf, .inr (.inr rfl)⟩))

/-! ## the step that ends a call -/

/-- The end of a call, seen from its own thread. -/
theorem ends_self {c : World} {i : Nat} {w : Hand} (hlt : i < c.hands.length) (r : PledgeRes) :
    ∃ w', (c.ends i w r).hands[i]? = some w' ∧ w'.errands = w.errands.tail ∧ w'.thread.filters = w.thread.filters ∧
      w'.thread.alive = (w.thread.alive && r.death.isNone) := by
  unfold World.ends
  dsimp only
  cases hd : r.death with
  | none =>
    refine ⟨{ w with errands := w.errands.tail }, by simp [hlt], rfl, rfl, by simp⟩
  | some o =>
    simp only [World.withThreads, World.threads, List.getElem?_zipWith, List.getElem?_set, if_true, hlt]
    have hr : ∃ t, (reap ((c.hands.set i { w with errands := w.errands.tail }).map Hand.thread) i w.thread.pid o)[i]? = some t ∧
        t.filters = w.thread.filters ∧ t.alive = false := by
      unfold reap
      split
      · simp only [List.getElem?_modify, List.getElem?_map, List.getElem?_set, if_true, hlt, Option.map_some, Option.map_eq_map,
          Option.some.injEq, exists_eq_left']
        exact ⟨trivial, trivial⟩
      · simp only [List.getElem?_map, List.getElem?_set, if_true, hlt, Option.map_some, Option.some.injEq, exists_eq_left']
        exact ⟨trivial, trivial⟩
    obtain ⟨t, h1, h2, h3⟩ := hr
    rw [h1]
    exact ⟨_, rfl, rfl, h2, by simp [h3]⟩

/-- C111: the next step of a living thread inside `pledge_override` either ends the innermost call, with the result `nextResult` says:
then the thread is back in what the call had interrupted, it is dead if the result is death and alive if not, and it has the filters it
had unless the result is `Ok`; or it does not, and then the thread lives and is still in that call, with the same arguments and the same
filters. -/
theorem C111_step (c : World) (i : Nat) (w : Hand) (f : Errand) (rest : List Errand) (hi : c.hands[i]? = some w)
    (ha : w.thread.alive = true) (hf : w.errands = f :: rest) :
    ∃ w', (c.step (.go i)).hands[i]? = some w' ∧
      match nextResult c i with
      | some r => w'.errands = rest ∧ (w'.thread.alive = true ↔ r.death = none) ∧ (r ≠ .ok → w'.thread.filters = w.thread.filters)
      | none => w'.thread.alive = true ∧ w'.thread.filters = w.thread.filters ∧ ∃ g, w'.errands = g :: rest ∧ SameCall f g := by
  obtain ⟨t0, mm, kk, es, ln⟩ := w
  simp only at ha hf
  subst hf
  have hlt : i < c.hands.length := (List.getElem?_eq_some_iff.1 hi).1
  let w : Hand := ⟨t0, mm, kk, f :: rest, ln⟩
  have hset : ∀ w', (c.hands.set i w')[i]? = some w' := fun w' => by simp [hlt]
  have same : SameCall f f := ⟨rfl, rfl, rfl, rfl, rfl, rfl⟩
  have over : ∀ (c0 : World) (t : Thread) (r : PledgeRes), c0.hands = c.hands → t.alive = true → (r ≠ .ok → t.filters = t0.filters) →
      ∃ w', (c0.ends i { w with thread := t } r).hands[i]? = some w' ∧ w'.errands = rest ∧ (w'.thread.alive = true ↔ r.death = none) ∧
        (r ≠ .ok → w'.thread.filters = t0.filters) := by
    intro c0 t r hc hal hfl
    obtain ⟨w', h1, h2, h3, h4⟩ := ends_self (c := c0) (i := i) (w := { w with thread := t }) (by rw [hc]; exact hlt) r
    refine ⟨w', h1, h2, ?_, fun hr => h3.trans (hfl hr)⟩
    rw [h4]
    simp [hal]
  simp only [World.step, nextResult, hi, ha, if_true, World.advance, keysEnd]
  cases hs : f.site with
  | table =>
    simp only
    split
    · rename_i hc
      simp only [hc, Option.some.injEq, reduceCtorEq, if_false]
      exact ⟨_, hset _, ha, rfl, _, rfl, same⟩
    · rename_i hc
      simp only [hc, Option.some.injEq, reduceCtorEq, if_false]
      exact ⟨_, hset _, ha, rfl, _, rfl, same⟩
    · rename_i hc
      simp only [hc, if_true]
      exact over c t0 .panic rfl ha (fun _ => rfl)
    · rename_i h1 h2 h3
      rw [if_neg h3]
      exact ⟨_, hi, ha, rfl, f, rfl, same⟩
  | init =>
    simp only
    cases kk with
    | true =>
      simp only [if_true]
      exact ⟨_, hset _, ha, rfl, _, rfl, same⟩
    | false =>
      simp only [Bool.false_eq_true, if_false]
      rcases askKeys_cases f.act.env.handler t0 f.seed with h | ⟨o, h⟩ | ⟨h, _⟩
      · rw [h]
        exact ⟨_, hset _, ha, rfl, _, rfl, same⟩
      · rw [h]
        exact over c t0 (.died o) rfl ha (fun _ => rfl)
      · rw [h]
        exact over _ t0 .panic rfl ha (fun _ => rfl)
  | rest =>
    simp only
    split
    · rename_i hk
      have hkeys : kk = false := by
        simp only [Bool.and_eq_true, Bool.not_eq_true'] at hk; exact hk.2
      subst hkeys
      simp only [Bool.false_eq_true, if_false]
      cases hq : askKeys f.act.env.handler t0 f.seed with
      | ok u => exact ⟨_, hset _, ha, rfl, _, rfl, same⟩
      | error r =>
        exact over c t0 r rfl ha (fun _ => rfl)
    · have hal := next_alive f.act t0
      have hnc := next_cases f.act t0
      cases hn : f.act.next t0 with
      | mk t x =>
        rw [hn] at hal hnc
        simp only at hal hnc ⊢
        cases x with
        | inl a =>
          simp only
          simp only [Sum.inl.injEq, reduceCtorEq, false_and, exists_false, and_false, or_false] at hnc
          obtain ⟨h1, a', rfl, h2, h3, h4, h5, h6⟩ := hnc
          exact ⟨_, hset _, hal.trans ha, h1, _, rfl, rfl, h2, h3, h4, h5, h6⟩
        | inr r =>
          refine over c t r rfl (hal.trans ha) (fun hr => ?_)
          rcases hnc with ⟨h1, _⟩ | h1 | ⟨h1, _⟩ | ⟨h1, _⟩
          · exact h1
          · cases h1; exact absurd rfl hr
          · exact h1
          · exact h1

/-- C111: the calls that return `Ok` are those C96 speaks of. -/
theorem C111_ok (c : World) (i : Nat) (ps : List Promise) (v : SeccompReturn) :
    (i, ps, v) ∈ okOf c (.go i) ↔
      nextResult c i = some .ok ∧ ∃ w f rest, c.hands[i]? = some w ∧ w.errands = f :: rest ∧ f.act.ps = ps ∧ f.act.v = v := by
  simp only [okOf, nextResult]
  cases hi : c.hands[i]? with
  | none => simp
  | some w =>
    simp only
    cases hf : w.errands with
    | nil => simp
    | cons f rest =>
      simp only
      cases ha : w.thread.alive with
      | false => simp
      | true =>
        have hk : keysEnd w f ≠ some .ok := by
          unfold keysEnd
          split
          · simp
          · rcases askKeys_cases f.act.env.handler w.thread f.seed with h | ⟨o, h⟩ | ⟨h, _⟩ <;> rw [h] <;> simp
        cases hs : f.site with
        | table => simp
        | init => simp [hk]
        | rest =>
          simp only [true_and, if_true]
          cases hm : f.act.assembles && !w.keys with
          | true =>
            have : f.act.assembles = true ∧ w.keys = false := by simpa using hm
            simp [this, hk]
          | false =>
            have : ¬ (f.act.assembles = true ∧ w.keys = false) := by
              intro h; simp [h] at hm
            simp only [this, not_false_eq_true, if_true, Bool.false_eq_true, if_false]
            cases (f.act.next w.thread).2 with
            | inl a => simp
            | inr r =>
              cases r with
              | ok =>
                simp only [List.mem_singleton, Prod.mk.injEq, true_and, Option.some.injEq]
                constructor
                · rintro ⟨rfl, rfl⟩; exact ⟨w, f, rest, rfl, hf, rfl, rfl⟩
                · rintro ⟨w', f', rest', rfl, h, rfl, rfl⟩
                  rw [hf] at h; cases h; exact ⟨rfl, rfl⟩
              | err e => simp
              | panic => simp
              | died o => simp

theorem keysEnd_cases (w : Hand) (f : Errand) :
    keysEnd w f = none ∨ (∃ o, keysEnd w f = some (.died o)) ∨
    (keysEnd w f = some .panic ∧ w.keys = false ∧ f.seed.fallback = .panics ∧
      ((∃ n, enter w.thread f.seed.getrandom = .errno n) ∨ enter w.thread f.seed.getrandom = .trap ∧ f.act.env.handler = true)) := by
  unfold keysEnd
  cases hk : w.keys with
  | true => exact .inl rfl
  | false =>
    simp only [Bool.false_eq_true, if_false]
    rcases askKeys_cases f.act.env.handler w.thread f.seed with h | ⟨o, h⟩ | ⟨h, h'⟩ <;> rw [h]
    · exact .inl rfl
    · exact .inr (.inl ⟨o, rfl⟩)
    · exact .inr (.inr ⟨rfl, trivial, h'⟩)

theorem keysEnd_panics {w : Hand} {f : Errand} (hk : w.keys = false) (hp : f.seed.fallback = .panics)
    (he : (∃ n, enter w.thread f.seed.getrandom = .errno n) ∨ enter w.thread f.seed.getrandom = .trap ∧ f.act.env.handler = true) :
    keysEnd w f = some .panic := by
  unfold keysEnd askKeys
  rcases he with ⟨n, he⟩ | ⟨he, hh⟩
  · simp [hk, hp, he]
  · simp [hk, hp, he, hh]

theorem results_cases (c : World) (i : Nat) (r : PledgeRes) (h : nextResult c i = some r) :
    (r = .ok ∨ (∃ n, r = .err (.SysErr n)) ∨ r = .panic ∨ ∃ o, r = .died o) ∧ (r = .panic ↔ Balks c i ∨ Spoilt c i) := by
  unfold nextResult at h
  cases hi : c.hands[i]? with
  | none => rw [hi] at h; cases h
  | some w =>
    rw [hi] at h
    simp only at h
    cases hf : w.errands with
    | nil => rw [hf] at h; cases h
    | cons f rest =>
      rw [hf] at h
      simp only at h
      split at h
      · rename_i ha
        have noBalk : ¬ (f.site = .init ∨ f.site = .rest ∧ f.act.assembles = true) ∨ keysEnd w f ≠ some .panic → ¬ Balks c i := by
          rintro hno ⟨w', f', rest', e1, _, e3, e4, e5, e6, e7⟩
          rw [hi] at e1; cases e1
          rw [hf] at e3; cases e3
          rcases hno with hno | hno
          · exact hno e5
          · exact hno (keysEnd_panics e4 e6 e7)
        have noSpoil : f.site ≠ .table → ¬ Spoilt c i := by
          rintro hno ⟨w', f', rest', e1, _, e3, e4, _⟩
          rw [hi] at e1; cases e1
          rw [hf] at e3; cases e3
          exact hno e4
        have keyed : f.site ≠ .table → (f.site = .init ∨ f.site = .rest ∧ f.act.assembles = true) → keysEnd w f = some r →
            (r = .ok ∨ (∃ n, r = .err (.SysErr n)) ∨ r = .panic ∨ ∃ o, r = .died o) ∧ (r = .panic ↔ Balks c i ∨ Spoilt c i) := by
          intro hs hs' hk
          rcases keysEnd_cases w f with h' | ⟨o, h'⟩ | ⟨h', g1, g2, g3⟩
          · rw [h'] at hk; cases hk
          · rw [h'] at hk; cases hk
            refine ⟨.inr (.inr (.inr ⟨o, rfl⟩)), by simp, ?_⟩
            rintro (hb | hb)
            · exact absurd hb (noBalk (.inr (by rw [h']; simp)))
            · exact absurd hb (noSpoil hs)
          · rw [h'] at hk; cases hk
            exact ⟨.inr (.inr (.inl rfl)), fun _ => .inl ⟨w, f, rest, hi, ha, hf, g1, hs', g2, g3⟩, fun _ => rfl⟩
        cases hs : f.site with
        | table =>
          rw [hs] at h
          simp only at h
          split at h
          · rename_i hc
            cases h
            exact ⟨.inr (.inr (.inl rfl)), fun _ => .inr ⟨w, f, rest, hi, ha, hf, hs, hc⟩, fun _ => rfl⟩
          · cases h
        | init =>
          rw [hs] at h
          exact keyed (by rw [hs]; simp) (.inl hs) h
        | rest =>
          rw [hs] at h
          simp only at h
          split at h
          · rename_i hk
            simp only [Bool.and_eq_true, Bool.not_eq_true'] at hk
            exact keyed (by rw [hs]; simp) (.inr ⟨hs, hk.1⟩) h
          · rename_i hk
            split at h
            · rename_i r' hr
              cases h
              have nb : ¬ (Balks c i ∨ Spoilt c i) := by
                rintro (hb | hb)
                · obtain ⟨w', f', rest', e1, _, e3, e4, e5, _⟩ := hb
                  rw [hi] at e1; cases e1
                  rw [hf] at e3; cases e3
                  rw [hs] at e5
                  simp only [reduceCtorEq, true_and, false_or] at e5
                  simp [e4, e5] at hk
                · exact noSpoil (by rw [hs]; simp) hb
              rcases next_cases f.act w.thread with ⟨_, a, h1, _⟩ | h1 | ⟨_, n, h1⟩ | ⟨_, d, h1, _⟩ <;> rw [h1] at hr <;> cases hr
              · exact ⟨.inl rfl, by simp [nb]⟩
              · exact ⟨.inr (.inl ⟨n, rfl⟩), by simp [nb]⟩
              · exact ⟨.inr (.inr (.inr ⟨_, rfl⟩)), by simp [nb]⟩
            · cases h
      · cases h

/-- C111: every call ends with `Ok`, with a system error, with a panic or in death. -/
theorem C111_results (c : World) (i : Nat) (r : PledgeRes) (h : nextResult c i = some r) :
    r = .ok ∨ (∃ n, r = .err (.SysErr n)) ∨ r = .panic ∨ ∃ o, r = .died o := (results_cases c i r h).1

/-- C111: a call panics exactly if its thread gets no random bytes, or the promise table could not be made. -/
theorem C111_panics (c : World) (i : Nat) : nextResult c i = some .panic ↔ Balks c i ∨ Spoilt c i := by
  constructor
  · intro h; exact (results_cases c i _ h).2.1 rfl
  · rintro (⟨w, f, rest, hi, ha, hf, hk, hs, hp, he⟩ | ⟨w, f, rest, hi, ha, hf, hs, hc⟩)
    · have := keysEnd_panics hk hp he
      rcases hs with hs | ⟨hs, hm⟩
      · simp [nextResult, hi, hf, ha, hs, this]
      · simp [nextResult, hi, hf, ha, hs, hm, hk, this]
    · simp [nextResult, hi, hf, ha, hs, hc]

/-! ## where panics come from -/

/-- A table is spoilt only by a thread that gets no random bytes. -/
theorem poison_step (c : World) (m : Happening) (h0 : ∀ x ∈ c.cells, x ≠ .poisoned) (h1 : ∃ x ∈ (c.step m).cells, x = .poisoned) :
    ∃ i, m = .go i ∧ Balks c i := by
  obtain ⟨x, hx, rfl⟩ := h1
  have no : .poisoned ∈ c.cells → False := fun h => h0 _ h rfl
  have noSet : ∀ (j : Nat) (y : Cell), y ≠ .poisoned → .poisoned ∈ c.cells.set j y → False := by
    intro j y hy h
    rcases List.mem_or_eq_of_mem_set h with h | h
    · exact no h
    · exact hy h.symm
  have ends_cells : ∀ (c : World) (i : Nat) (w : Hand) (r : PledgeRes), (c.ends i w r).cells = c.cells := by
    intro c i w r
    unfold World.ends
    cases r.death <;> rfl
  cases m with
  | go i =>
    refine ⟨i, rfl, ?_⟩
    simp only [World.step] at hx
    split at hx
    · rename_i w hi
      split at hx
      · rename_i f rest hf
        split at hx
        · rename_i ha
          unfold World.advance at hx
          dsimp only at hx
          split at hx
          · split at hx
            · exact (no hx).elim
            · exact (noSet _ _ (by simp) hx).elim
            · rw [ends_cells] at hx; exact (no hx).elim
            · exact (no hx).elim
          · rename_i hs
            split at hx
            · exact (noSet _ _ (by simp) hx).elim
            · rename_i hk
              rcases askKeys_cases f.act.env.handler w.thread f.seed with h | ⟨o, h⟩ | ⟨h, h2, h3⟩ <;> rw [h] at hx <;> simp only at hx
              · exact (noSet _ _ (by simp) hx).elim
              · rw [ends_cells] at hx; exact (no hx).elim
              · exact ⟨w, f, rest, hi, ha, hf, by simpa using hk, .inl hs, h2, h3⟩
          · split at hx
            · split at hx
              · exact (no hx).elim
              · rw [ends_cells] at hx; exact (no hx).elim
            · split at hx
              · exact (no hx).elim
              · rw [ends_cells] at hx; exact (no hx).elim
        · exact (no hx).elim
      · exact (no hx).elim
    · exact (no hx).elim
  | enter => simp only [World.step] at hx; split at hx <;> (try split at hx) <;> exact (no hx).elim
  | leave => simp only [World.step] at hx; split at hx <;> (try split at hx) <;> exact (no hx).elim
  | fork i d h pid tid =>
    simp only [World.step] at hx
    split at hx
    · rename_i w hi
      split at hx
      · simp only [List.mem_append, List.mem_singleton] at hx
        rcases hx with hx | hx
        · exact (no hx).elim
        · cases hc : c.cells[w.mem]? with
          | none => rw [hc] at hx; cases hx
          | some y =>
            rw [hc] at hx
            simp only [Option.getD_some] at hx
            subst hx
            exact (no (List.mem_of_getElem? hc)).elim
      · exact (no hx).elim
    · exact (no hx).elim
  | clone => simp only [World.step] at hx; split at hx <;> (try split at hx) <;> exact (no hx).elim
  | exec =>
    simp only [World.step] at hx
    split at hx
    · split at hx
      · simp only [List.mem_append, List.mem_singleton, reduceCtorEq, or_false] at hx
        exact (no hx).elim
      · exact (no hx).elim
    · exact (no hx).elim
  | other op => cases op <;> exact (no hx).elim

theorem poison_run (c : World) (h0 : ∀ x ∈ c.cells, x ≠ .poisoned) (hs : List Happening) (hm : .poisoned ∈ (c.run hs).cells) :
    ∃ before j after, hs = before ++ .go j :: after ∧ Balks (c.run before) j := by
  induction hs generalizing c with
  | nil => exact absurd rfl (h0 _ hm)
  | cons m hs ih =>
    by_cases hp : ∀ x ∈ (c.step m).cells, x ≠ .poisoned
    · obtain ⟨before, j, after, h1, h2⟩ := ih (c.step m) hp hm
      exact ⟨m :: before, j, after, by rw [h1]; rfl, h2⟩
    · simp only [Classical.not_forall, Classical.not_not] at hp
      obtain ⟨x, hx, hp⟩ := hp
      obtain ⟨j, rfl, hb⟩ := poison_step c m h0 ⟨x, hx, hp⟩
      exact ⟨[], j, hs, rfl, hb⟩

/-- C111: if no table is spoilt at first, then behind every panic of every call in every run there is a thread that was inside
`pledge_override` and got no random bytes: the panicking one now, or one whose step came before. -/
theorem C111_panic_cause (c : World) (h0 : ∀ x ∈ c.cells, x ≠ .poisoned) (hs : List Happening) (i : Nat)
    (h : nextResult (c.run hs) i = some .panic) :
    Balks (c.run hs) i ∨ ∃ before j after, hs = before ++ .go j :: after ∧ Balks (c.run before) j := by
  rcases (C111_panics _ _).1 h with h | ⟨w, _, _, _, _, _, _, hc⟩
  · exact .inl h
  · exact .inr (poison_run c h0 hs (List.mem_of_getElem? hc))

/-! ## when nothing panics -/

theorem told_getrandom (p : Told) (hne : .StdIO ∈ p.ps → p.pids ≠ [] ∧ p.tids ≠ []) (s : Seed) :
    p.verdict s.getrandom = if .StdIO ∈ p.ps then 0x7fff0000#32 else p.v.toU32 := by
  have key : ∀ ids, Allowed ids p.ps s.getrandom ↔ .StdIO ∈ p.ps := by
    intro ids
    rw [allowed_iff (n := 318) rfl (by decide)]
    have hf : freeOf 318 = [.StdIO] := by decide +kernel
    simp [hf, ruleAt]
  have : p.Allows s.getrandom ↔ .StdIO ∈ p.ps := by
    constructor
    · rintro ⟨_, _, _, ha⟩; exact (key _).1 ha
    · intro hs
      obtain ⟨h1, h2⟩ := hne hs
      obtain ⟨a, ha⟩ := List.exists_mem_of_ne_nil _ h1
      obtain ⟨c, hc⟩ := List.exists_mem_of_ne_nil _ h2
      exact ⟨a, c, fun _ => ⟨ha, hc⟩, (key _).2 hs⟩
  unfold Told.verdict
  rw [if_neg (by simp [Seed.getrandom, X86_64])]
  by_cases hs : .StdIO ∈ p.ps
  · rw [if_pos hs, if_pos (this.2 hs)]; rfl
  · rw [if_neg hs, if_neg (fun h => hs (this.1 h))]

/-- A call that every pledge allows with StdIO and denies without is executed, or meets the violation of a pledge without StdIO. -/
theorem own_fates (c : World) (hc : Untouched c) (hs : List Happening) (ho : NoOthers hs) (k : Nat) (w : Hand)
    (hk : (c.run hs).hands[k]? = some w) (d : SeccompData)
    (hd : ∀ p : Told, (.StdIO ∈ p.ps → p.pids ≠ [] ∧ p.tids ≠ []) → p.verdict d = if .StdIO ∈ p.ps then 0x7fff0000#32 else p.v.toU32) :
    enter w.thread d = .executed ∨ ∃ ps v, Pledges hs ps v ∧ .StdIO ∉ ps ∧ enter w.thread d = outcome v.toU32 := by
  unfold enter
  rw [runFilters_eq]
  rcases combine_mem 0x7fff0000#32 (w.thread.filters.map fun f => cur f d) with h | h
  · rw [h]; left; decide
  · obtain ⟨f, hf, he⟩ := List.mem_map.1 h
    obtain ⟨p, h1, h2, h3, h4, _⟩ := C96_filters c hc hs ho k w hk f hf
    rw [decides_cur h1, hd p (told_nonempty h3 h4)] at he
    rw [← he]
    split
    · left; decide
    · rename_i hn
      exact .inr ⟨p.ps, p.v, h2, hn, rfl⟩

/-- C111: if every pledge has StdIO or a violation that kills (or lets pass), no call ever panics. -/
theorem C111_no_panic (c : World) (hc : Untouched c) (h0 : ∀ x ∈ c.cells, x ≠ .poisoned) (hs : List Happening) (ho : NoOthers hs)
    (hv : ∀ ps v, Pledges hs ps v → .StdIO ∈ ps ∨ (∀ n, outcome v.toU32 ≠ .errno n) ∧ outcome v.toU32 ≠ .trap) (i : Nat) :
    nextResult (c.run hs) i ≠ some .panic := by
  intro h
  have key : ∀ hs1, (∀ x ∈ hs1, x ∈ hs) → ∀ j, ¬ Balks (c.run hs1) j := by
    rintro hs1 hsub j ⟨w, f, rest, hi, _, _, _, _, _, he⟩
    have ho1 : NoOthers hs1 := fun i d h f p hm => ho i d h f p (hsub _ hm)
    rcases own_fates c hc hs1 ho1 j w hi f.seed.getrandom (fun p hp => told_getrandom p hp f.seed) with h1 | ⟨ps, v, ⟨i', b, env, q, seed, h1⟩, h2, h3⟩
    · rw [h1] at he; simp at he
    · rcases hv ps v ⟨i', b, env, q, seed, hsub _ h1⟩ with h4 | ⟨h4, h5⟩
      · exact h2 h4
      · rw [h3] at he
        rcases he with ⟨n, he⟩ | ⟨he, _⟩
        · exact h4 n he
        · exact h5 he
  rcases C111_panic_cause c h0 hs i h with h1 | ⟨before, j, after, rfl, h1⟩
  · exact key hs (fun _ h => h) i h1
  · exact key before (fun x hx => List.mem_append_left _ hx) j h1

theorem query_told (q : Query) (p : Told) (hne : .StdIO ∈ p.ps → p.pids ≠ [] ∧ p.tids ≠ []) (d : SeccompData)
    (hd : d = q.getpid ∨ d = q.gettid) : p.verdict d = if .StdIO ∈ p.ps then 0x7fff0000#32 else p.v.toU32 := by
  let env : Env := ⟨none, none, false, (0, 0), (0, 0), ⟨0, 0⟩, fun _ => q.ip, 0, fun _ => q.junk, fun _ _ => 0⟩
  rcases hd with rfl | rfl
  · exact Pledge.told_own p hne env _ (.inl rfl)
  · exact Pledge.told_own p hne env _ (.inr (.inl rfl))

/-- C111: a thread dies in a call only because of a pledge without StdIO: by its violation, or, if that refuses calls, in the standard
library's other ways to random bytes. -/
theorem C111_death (c : World) (hc : Untouched c) (hs : List Happening) (ho : NoOthers hs) (i : Nat) (o : Outcome)
    (h : nextResult (c.run hs) i = some (.died o)) :
    ∃ ps v, Pledges hs ps v ∧ .StdIO ∉ ps ∧ (o = outcome v.toU32 ∨ outcome v.toU32 = .trap ∨ ∃ n, outcome v.toU32 = .errno n) := by
  unfold nextResult at h
  cases hi : (c.run hs).hands[i]? with
  | none => rw [hi] at h; cases h
  | some w =>
    rw [hi] at h
    simp only at h
    cases hf : w.errands with
    | nil => rw [hf] at h; cases h
    | cons f rest =>
      rw [hf] at h
      simp only at h
      have keyed : keysEnd w f = some (.died o) →
          ∃ ps v, Pledges hs ps v ∧ .StdIO ∉ ps ∧ (o = outcome v.toU32 ∨ outcome v.toU32 = .trap ∨ ∃ n, outcome v.toU32 = .errno n) := by
        intro hk
        rcases own_fates c hc hs ho i w hi f.seed.getrandom (fun p hp => told_getrandom p hp f.seed) with h1 | ⟨ps, v, h1, h2, h3⟩
        · unfold keysEnd askKeys at hk
          rw [h1] at hk
          split at hk <;> cases hk
        · refine ⟨ps, v, h1, h2, ?_⟩
          unfold keysEnd askKeys at hk
          rw [h3] at hk
          split at hk
          · cases hk
          · cases ho : outcome v.toU32 with
            | executed => rw [ho] at hk; cases hk
            | errno n => exact .inr (.inr ⟨n, rfl⟩)
            | trap => exact .inr (.inl rfl)
            | killThread => rw [ho] at hk; cases hk; exact .inl rfl
            | killProcess => rw [ho] at hk; cases hk; exact .inl rfl
      split at h
      · split at h
        · split at h <;> cases h
        · exact keyed h
        · split at h
          · exact keyed h
          · split at h
            · rename_i r' hr
              cases h
              rcases next_cases f.act w.thread with ⟨_, a, h1, _⟩ | h1 | ⟨_, n, h1⟩ | ⟨_, d, h1, hfat, hd⟩ <;> rw [h1] at hr <;> cases hr
              have hown : ∀ p : Told, (.StdIO ∈ p.ps → p.pids ≠ [] ∧ p.tids ≠ []) →
                  p.verdict d = if .StdIO ∈ p.ps then 0x7fff0000#32 else p.v.toU32 := by
                intro p hp
                rcases hd with ⟨k, hd⟩ | hd | hd
                · exact query_told _ p hp d hd
                · exact Pledge.told_own p hp f.act.env d (.inr (.inr (.inl hd)))
                · exact Pledge.told_own p hp f.act.env d (.inr (.inr (.inr hd)))
              rcases own_fates c hc hs ho i w hi d hown with h2 | ⟨ps, v, h2, h3, h4⟩
              · rw [h2] at hfat
                rcases hfat with hfat | hfat | ⟨hfat, _⟩ <;> cases hfat
              · exact ⟨ps, v, h2, h3, .inl h4⟩
            · cases h
      · cases h

/-- C111: if every pledge has StdIO, every call returns: `Ok` or a system error. -/
theorem C111_stdio (c : World) (hc : Untouched c) (h0 : ∀ x ∈ c.cells, x ≠ .poisoned) (hs : List Happening) (ho : NoOthers hs)
    (hv : ∀ ps v, Pledges hs ps v → .StdIO ∈ ps) (i : Nat) (r : PledgeRes) (h : nextResult (c.run hs) i = some r) :
    r = .ok ∨ ∃ n, r = .err (.SysErr n) := by
  rcases C111_results _ i r h with h1 | h1 | rfl | ⟨o, rfl⟩
  · exact .inl h1
  · exact .inr h1
  · exact absurd h (C111_no_panic c hc h0 hs ho (fun ps v h => .inl (hv ps v h)) i)
  · obtain ⟨ps, v, h1, h2, _⟩ := C111_death c hc hs ho i o h
    exact absurd (hv ps v h1) h2

/-- C111: if every pledge kills the process on a violation, as `pledge` does, then every call returns `Ok` or a system error, or the
process is killed in it. -/
theorem C111_default (c : World) (hc : Untouched c) (h0 : ∀ x ∈ c.cells, x ≠ .poisoned) (hs : List Happening) (ho : NoOthers hs)
    (hv : ∀ ps v, Pledges hs ps v → v = .KillProcess) (i : Nat) (r : PledgeRes) (h : nextResult (c.run hs) i = some r) :
    r = .ok ∨ (∃ n, r = .err (.SysErr n)) ∨ (r = .died .killProcess ∧ ∃ ps, Pledges hs ps .KillProcess ∧ .StdIO ∉ ps) := by
  have hkill : outcome SeccompReturn.KillProcess.toU32 = .killProcess := by decide
  rcases C111_results _ i r h with h1 | h1 | rfl | ⟨o, rfl⟩
  · exact .inl h1
  · exact .inr (.inl h1)
  · refine absurd h (C111_no_panic c hc h0 hs ho (fun ps v h => .inr ?_) i)
    rw [hv ps v h, hkill]; simp
  · obtain ⟨ps, v, h1, h2, h3⟩ := C111_death c hc hs ho i o h
    have := hv ps v h1
    subst this
    rw [hkill] at h3
    rcases h3 with rfl | h3 | ⟨n, h3⟩
    · exact .inr (.inr ⟨rfl, ps, h1, h2⟩)
    · cases h3
    · cases h3

/-! ## the hypotheses can be met -/

set_option maxRecDepth 100000 in
/-- In `crowd` three calls end, all with `Ok`; its pledges all have StdIO and kill (C111_stdio, C111_default, C111_no_panic). -/
example : resultsIn world0 crowd = [(0, .ok), (1, .ok), (2, .ok)] := by decide +kernel

example : ∀ x ∈ world0.cells, x ≠ .poisoned := by decide

/-- A thread without hash keys and without random bytes: its first call panics when it makes the table, its second one because of that. -/
theorem barren (T : Thread) (s : Seed) (b : Build) (env : Env) (q : Nat → Query) (ps : List Promise) (v : SeccompReturn)
    (ha : T.alive = true) (hk : askKeys env.handler T s = .error .panic) :
    resultsIn ⟨[⟨T, 0, false, [], []⟩], [.idle]⟩ [.enter 0 b env q s ps v, .go 0, .go 0, .enter 0 b env q s ps v, .go 0] =
      [(0, .panic), (0, .panic)] := by
  simp [resultsIn, nextResult, keysEnd, World.step, World.advance, World.ends, PledgeRes.death, Hand.with, hk, ha]

/-- There is such a thread: one under a filter that refuses everything. -/
example : askKeys calm.handler { thread0 with filters := [refusing] } ⟨0, fun _ => 0, .panics⟩ = .error .panic := by
  have hr : ∀ w, Kernel.run (fun _ => 0) refusing w = some 0x00050001#32 := by
    intro w
    unfold Kernel.run Kernel.runFrom
    simp only [refusing, List.getElem?_cons_zero, Kernel.step]
    rfl
  have he : Kernel.enter { thread0 with filters := [refusing] } (Seed.getrandom ⟨0, fun _ => 0, .panics⟩) = .errno 1 := by
    simp only [Kernel.enter, Kernel.runFilters, List.foldl_cons, List.foldl_nil, hr, Option.getD_some]
    decide
  unfold askKeys
  simp only [he]

end Props
