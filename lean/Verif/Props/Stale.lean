import Verif.Props.Signals
import Verif.Props.Ids
import Verif.Props.Offline
import Verif.Props.Result
import Verif.Props.Policy

/-!
# C85, for every fork in a pledge

`C85_stale_ids` is one run. Here is what a fork in the middle of a first pledge does to the child, whatever the promises, the violation, the
place of the fork, the ids, and the calls that the pledge had interrupted.
-/
set_option autoImplicit false

namespace Props
open Bpfvm Kernel Pledge Spec

theorem mix_pids (i j : Ids) (A B : List Filtered) (x : BitVec 32) :
    x ∈ pidsOf (A.map (fun f => (i, f)) ++ B.map (fun f => (j, f))) ↔ .KillSelf ∈ A ∧ x = i.pid ∨ .KillSelf ∈ B ∧ x = j.pid := by
  rw [mem_pidsOf]
  simp only [List.mem_append, List.mem_map, Prod.mk.injEq]
  constructor
  · rintro ⟨ids, ⟨f, hf, rfl, rfl⟩ | ⟨f, hf, rfl, rfl⟩, rfl⟩
    · exact .inl ⟨hf, rfl⟩
    · exact .inr ⟨hf, rfl⟩
  · rintro (⟨h, rfl⟩ | ⟨h, rfl⟩)
    · exact ⟨i, .inl ⟨_, h, rfl, rfl⟩, rfl⟩
    · exact ⟨j, .inr ⟨_, h, rfl, rfl⟩, rfl⟩

theorem mix_tids (i j : Ids) (A B : List Filtered) (x : BitVec 32) :
    x ∈ tidsOf (A.map (fun f => (i, f)) ++ B.map (fun f => (j, f))) ↔ .TkillSelf ∈ A ∧ x = i.tid ∨ .TkillSelf ∈ B ∧ x = j.tid := by
  rw [mem_tidsOf]
  simp only [List.mem_append, List.mem_map, Prod.mk.injEq]
  constructor
  · rintro ⟨ids, ⟨f, hf, rfl, rfl⟩ | ⟨f, hf, rfl, rfl⟩, rfl⟩
    · exact .inl ⟨hf, rfl⟩
    · exact .inr ⟨hf, rfl⟩
  · rintro (⟨h, rfl⟩ | ⟨h, rfl⟩)
    · exact ⟨i, .inl ⟨_, h, rfl, rfl⟩, rfl⟩
    · exact ⟨j, .inr ⟨_, h, rfl, rfl⟩, rfl⟩

theorem mix_size (l : List (Ids × Filtered)) (ps : List Promise) (v : BitVec 32) (hl : l.map Prod.snd = allFilters ps) :
    (mixProg l v).length = filterSize ps := by
  have hf : ∀ (i j : Ids) (f : Filtered), (frag i f).length = (frag j f).length := by
    intro i j f
    cases f <;> rfl
  rw [← size_progOf ⟨0, 0⟩ ps v]
  unfold mixProg progOf mixBody body
  rw [← hl]
  simp only [List.length_append, List.length_flatten, List.map_map, Function.comp_def, hf _ ⟨0, 0⟩]

/-- What the child has after the fork: the ids asked for before it are its parent's, those asked for after it are its own. -/
theorem fork_run (w : Wild) (i : Nat) (t : Thread) (acts : List Act) (line : List Ids) (hi : w[i]? = some ⟨t, acts, line⟩)
    (ha : t.alive = true) (ht : t.filters = []) (b : Build) (env : Env) (h1 : env.nnpFault = none) (h2 : env.seccompFault = none)
    (q : Nat → Query) (ps : List Promise) (v : SeccompReturn) (hsz : filterSize ps ≤ 4096) (A B : List Filtered)
    (hAB : A ++ B = allFilters ps) (d : SeccompData) (h : Option Int) (pid tid : BitVec 32) :
    (w.run (.enter i b env q ps v :: List.replicate (1 + A.length) (.go i) ++ .fork i d h pid tid true ::
        List.replicate (B.length + 2) (.go w.length)))[w.length]? =
      some ⟨{ t with pid := pid, tid := tid, nnp := true, filters :=
        [mixProg (A.map (fun f => (⟨t.pid, t.tid⟩, f)) ++ B.map (fun f => (⟨pid, tid⟩, f))) v.toU32] }, acts, ⟨pid, tid⟩ :: line⟩ := by
  have hlt : i < w.length := (List.getElem?_eq_some_iff.1 hi).1
  have app : ∀ (w : Wild) (a c : List Move), w.run (a ++ c) = (w.run a).run c := by intro w a c; simp [Wild.run]
  have one : ∀ (w : Wild) (m : Move) (c : List Move), w.run (m :: c) = (w.step m).run c := by intro w m c; simp [Wild.run]
  have e0 : w.step (.enter i b env q ps v) = w.set i ⟨t, ⟨b, env, q, ps, v, .start⟩ :: acts, line⟩ := by
    simp only [Wild.step, hi, ha, if_true]
  have e1 : Wild.step (w.set i ⟨t, ⟨b, env, q, ps, v, .start⟩ :: acts, line⟩) (.go i) =
      w.set i ⟨t, ⟨b, env, q, ps, v, .making 0 (A ++ B) []⟩ :: acts, line⟩ := by
    simp only [Wild.step, List.getElem?_set_self hlt, ha, if_true, Act.next]
    rw [mapM_filters]
    simp only [List.set_set, hAB]
    rfl
  generalize hl : A.map (fun f => ((⟨t.pid, t.tid⟩ : Ids), f)) ++ B.map (fun f => (⟨pid, tid⟩, f)) = l
  have hsnd : l.map Prod.snd = allFilters ps := by
    rw [← hl, ← hAB]
    simp [Function.comp_def]
  rw [List.cons_append, one, e0, ← List.replicate_append_replicate, List.append_assoc, app]
  rw [show List.replicate 1 (Move.go i) = [.go i] from rfl, one, e1]
  simp only [Wild.run, List.foldl_nil]
  rw [← Wild.run, app, go_many i t ha ht b env q ps v acts line A B _ 0 [] (List.getElem?_set_self hlt), List.set_set, one]
  generalize hw : w.set i ⟨t, ⟨b, env, q, ps, v, .making (0 + A.length) B ([] ++ A.map (frag ⟨t.pid, t.tid⟩))⟩ :: acts, line⟩ = w'
  have hwl : w'.length = w.length := by rw [← hw]; simp
  have hw' : w'[i]? = some ⟨t, ⟨b, env, q, ps, v, .making (0 + A.length) B ([] ++ A.map (frag ⟨t.pid, t.tid⟩))⟩ :: acts, line⟩ := by
    rw [← hw]; exact List.getElem?_set_self hlt
  have e2 : Wild.step w' (.fork i d h pid tid true) = w' ++ [⟨{ t with pid := pid, tid := tid },
      ⟨b, env, q, ps, v, .making (0 + A.length) B ([] ++ A.map (frag ⟨t.pid, t.tid⟩))⟩ :: acts, ⟨pid, tid⟩ :: line⟩] := by
    simp only [Wild.step, hw']
    rw [if_pos ⟨ha, enter_free _ ht _⟩]
    rfl
  rw [e2, ← List.replicate_append_replicate, app, go_many w.length { t with pid := pid, tid := tid } ha ht b env q ps v acts
    (⟨pid, tid⟩ :: line) B [] _ (0 + A.length) ([] ++ A.map (frag ⟨t.pid, t.tid⟩))
    (by rw [List.append_nil, ← hwl, List.getElem?_append_right (Nat.le_refl _), Nat.sub_self]; rfl), ← hwl]
  rw [show List.replicate 2 (Move.go w'.length) = [.go w'.length, .go w'.length] from rfl, one, one]
  have hp := mixProg_parts l v.toU32 _ _ rfl rfl
  have hsize := mix_size l ps v.toU32 hsnd
  have hpos : (mixProg l v.toU32).length ≠ 0 := by simp [mixProg]
  have hacc : accepts (mixProg l v.toU32) = true := by
    rw [accepts_mixProg, hsize]
    exact decide_eq_true hsz
  simp only [List.append_assoc, List.set_append_right _ _ (Nat.le_refl _), Nat.sub_self, List.set_cons_zero]
  generalize hc : ([] ++ (A.map (frag ⟨t.pid, t.tid⟩) ++ B.map (frag ⟨pid, tid⟩)) : List (List SockFilter)) = codes
  have hcl : codes = l.map fun x => frag x.1 x.2 := by rw [← hc, ← hl]; simp [Function.comp_def]
  have e3 : Wild.step (w' ++ [(⟨{ t with pid := pid, tid := tid }, ⟨b, env, q, ps, v, .making (0 + A.length + B.length) [] codes⟩ :: acts,
      ⟨pid, tid⟩ :: line⟩ : Busy)]) (.go w'.length) = w' ++ [⟨{ t with pid := pid, tid := tid, nnp := true },
        ⟨b, env, q, ps, v, .armed (mixProg l v.toU32)⟩ :: acts, ⟨pid, tid⟩ :: line⟩] := by
    simp only [Wild.step, List.getElem?_append_right (Nat.le_refl _), Nat.sub_self, List.getElem?_cons_zero, Act.next,
      bpfHeader_eq, bpfFooter_eq, syscall]
    rw [if_pos ha, enter_free _ (show ({ t with pid := pid, tid := tid } : Thread).filters = [] from ht)]
    simp only [h1, setNnp, checkRet]
    rw [← hp, hcl]
    simp [List.set_append_right]
    rfl
  have e4 : Wild.step (w' ++ [(⟨{ t with pid := pid, tid := tid, nnp := true }, ⟨b, env, q, ps, v, .armed (mixProg l v.toU32)⟩ :: acts,
      ⟨pid, tid⟩ :: line⟩ : Busy)]) (.go w'.length) = w' ++ [⟨{ t with pid := pid, tid := tid, nnp := true, filters :=
        [mixProg l v.toU32] }, acts, ⟨pid, tid⟩ :: line⟩] := by
    have h3 : ¬ ((mixProg l v.toU32).length = 0 ∨ maxInsns < (mixProg l v.toU32).length) := by unfold maxInsns; omega
    simp only [Wild.step, List.getElem?_append_right (Nat.le_refl _), Nat.sub_self, List.getElem?_cons_zero, Act.next, syscall]
    rw [if_pos ha, enter_free _ (show ({ t with pid := pid, tid := tid, nnp := true } : Thread).filters = [] from ht),
      List.take_of_length_le (by omega)]
    simp only [setSeccomp, h2, if_neg h3, hacc]
    simp [checkRet, ht, List.set_append_right, PledgeRes.death]
  rw [e3, e4]
  simp [Wild.run]

theorem single_enter (t : Thread) (f : Prog) (p : Told) (hf : Decides f p) (ht : t.filters = [f]) (d : SeccompData) :
    enter t d = outcome (p.verdict d) := by
  unfold enter
  rw [ht, outcome_single, decides_cur hf]

theorem told_signals (p : Told) (hp : .Proc ∉ p.ps) (h1 : .StdIO ∈ p.ps → p.pids ≠ []) (h2 : .StdIO ∈ p.ps → p.tids ≠ []) (d : SeccompData) :
    (IsCall d 62 → (p.Allows d ↔ .StdIO ∈ p.ps ∧ arg d 0 ∈ p.pids)) ∧ (IsCall d 200 → (p.Allows d ↔ .StdIO ∈ p.ps ∧ arg d 0 ∈ p.tids)) := by
  have k62 : freeOf 62 = [.Proc] := by decide +kernel
  have k200 : freeOf 200 = [.Proc] := by decide +kernel
  constructor
  · intro h
    have key : ∀ ids, Allowed ids p.ps d ↔ .StdIO ∈ p.ps ∧ arg d 0 = ids.pid := by
      intro ids
      rw [allowed_iff h.2 (by decide), k62]
      constructor
      · rintro ⟨x, hx, h1 | h1⟩
        · rw [List.mem_singleton.1 h1] at hx; exact absurd hx hp
        · exact ⟨h1.1 ▸ hx, h1.2⟩
      · rintro ⟨hs, he⟩
        exact ⟨.StdIO, hs, .inr ⟨rfl, he⟩⟩
    constructor
    · rintro ⟨pid, tid, h1, h2⟩
      obtain ⟨h3, h4⟩ := (key _).1 h2
      exact ⟨h3, h4 ▸ (h1 h3).1⟩
    · rintro ⟨hs, hm⟩
      obtain ⟨t, ht⟩ := List.exists_mem_of_ne_nil _ (h2 hs)
      exact ⟨_, t, fun _ => ⟨hm, ht⟩, (key _).2 ⟨hs, rfl⟩⟩
  · intro h
    have key : ∀ ids, Allowed ids p.ps d ↔ .StdIO ∈ p.ps ∧ arg d 0 = ids.tid := by
      intro ids
      rw [allowed_iff h.2 (by decide), k200]
      constructor
      · rintro ⟨x, hx, h1 | h1⟩
        · rw [List.mem_singleton.1 h1] at hx; exact absurd hx hp
        · exact ⟨h1.1 ▸ hx, h1.2⟩
      · rintro ⟨hs, he⟩
        exact ⟨.StdIO, hs, .inr ⟨rfl, he⟩⟩
    constructor
    · rintro ⟨pid, tid, h1, h2⟩
      obtain ⟨h3, h4⟩ := (key _).1 h2
      exact ⟨h3, h4 ▸ (h1 h3).2⟩
    · rintro ⟨hs, hm⟩
      obtain ⟨t, ht⟩ := List.exists_mem_of_ne_nil _ (h1 hs)
      exact ⟨t, _, fun _ => ⟨ht, hm⟩, (key _).2 ⟨hs, rfl⟩⟩

/-- C85, for every fork: thread `i` of any system, which has no filters yet, pledges; a handler forks when the rules `before` have been
made and the rules `rest` have not; the pledge goes on in the child. It ends there with a filter in force. kill is allowed to the child for
the id of its parent, if the rule for kill was made before the fork, and for its own id, if such a rule was made after the fork, and for no
other; likewise tkill. Every other system call has the fate that it has after an undisturbed pledge of `t`. -/
theorem C85_every_fork (w : Wild) (i : Nat) (t : Thread) (acts : List Act) (line : List Ids) (hi : w[i]? = some ⟨t, acts, line⟩)
    (ha : t.alive = true) (ht : t.filters = []) (b : Build) (env : Env) (h1 : env.nnpFault = none) (h2 : env.seccompFault = none)
    (q : Nat → Query) (ps : List Promise) (v : SeccompReturn) (hsz : filterSize ps ≤ 4096) (before rest : List Filtered)
    (hsplit : before ++ rest = ((.Default :: ps).map filtersOf).flatten) (d : SeccompData) (h : Option Int) (pid tid : BitVec 32) :
    ∃ c : Thread, (w.run (.enter i b env q ps v :: List.replicate (1 + before.length) (.go i) ++ .fork i d h pid tid true ::
        List.replicate (rest.length + 2) (.go w.length)))[w.length]? = some ⟨c, acts, ⟨pid, tid⟩ :: line⟩ ∧
      c.pid = pid ∧ c.tid = tid ∧ c.nnp = true ∧ c.filters.length = 1 ∧
      (.Proc ∉ ps → ∀ e, IsCall e 62 →
        (.KillSelf ∈ before ∧ arg e 0 = t.pid ∨ .KillSelf ∈ rest ∧ arg e 0 = pid → enter c e = .executed) ∧
        (¬ (.KillSelf ∈ before ∧ arg e 0 = t.pid ∨ .KillSelf ∈ rest ∧ arg e 0 = pid) → enter c e = outcome v.toU32)) ∧
      (.Proc ∉ ps → ∀ e, IsCall e 200 →
        (.TkillSelf ∈ before ∧ arg e 0 = t.tid ∨ .TkillSelf ∈ rest ∧ arg e 0 = tid → enter c e = .executed) ∧
        (¬ (.TkillSelf ∈ before ∧ arg e 0 = t.tid ∨ .TkillSelf ∈ rest ∧ arg e 0 = tid) → enter c e = outcome v.toU32)) ∧
      ∀ e, e.nr ≠ 62 → e.nr ≠ 200 → enter c e = enter (pledgeOverride b env t ps v).1 e := by
  refine ⟨_, fork_run w i t acts line hi ha ht b env h1 h2 q ps v hsz before rest hsplit d h pid tid, rfl, rfl, rfl, rfl, ?_⟩
  generalize hl : before.map (fun f => ((⟨t.pid, t.tid⟩ : Ids), f)) ++ rest.map (fun f => (⟨pid, tid⟩, f)) = l
  have hsnd : l.map Prod.snd = allFilters ps := by
    rw [← hl]
    simpa [Function.comp_def, allFilters] using hsplit
  have hdec := mix_decides l ps v hsnd
  have hlen := pidsOf_length l ps hsnd
  have hcnt : .StdIO ∈ ps → 0 < ps.count .StdIO := List.count_pos_iff.2
  have hne1 : .StdIO ∈ ps → pidsOf l ≠ [] := fun hs he => by have := hcnt hs; rw [he] at hlen; simp at hlen; omega
  have hne2 : .StdIO ∈ ps → tidsOf l ≠ [] := fun hs he => by have := hcnt hs; rw [he] at hlen; simp at hlen; omega
  have hmem : ∀ f, f ∈ before ∨ f ∈ rest ↔ f ∈ allFilters ps := by
    intro f
    rw [← List.mem_append, hsplit]
    rfl
  have hyes : ∀ e, e.arch = X86_64 → (Told.mk (pidsOf l) (tidsOf l) ps v).Allows e →
      outcome ((Told.mk (pidsOf l) (tidsOf l) ps v).verdict e) = .executed := by
    intro e h1 h2
    unfold Told.verdict
    rw [if_neg (by simp [h1]), if_pos h2]
    decide
  have hno : ∀ e, e.arch = X86_64 → ¬ (Told.mk (pidsOf l) (tidsOf l) ps v).Allows e →
      outcome ((Told.mk (pidsOf l) (tidsOf l) ps v).verdict e) = outcome v.toU32 := by
    intro e h1 h2
    unfold Told.verdict
    rw [if_neg (by simp [h1]), if_neg h2]
  refine ⟨fun hp e he => ?_, fun hp e he => ?_, fun e he1 he2 => ?_⟩
  · have ht := (told_signals ⟨pidsOf l, tidsOf l, ps, v⟩ hp hne1 hne2 e).1 he
    rw [← hl] at ht
    rw [mix_pids, ← asking_filter ps .KillSelf (.inl rfl), ← hmem] at ht
    rw [hl] at ht
    rw [single_enter _ _ _ hdec rfl]
    refine ⟨fun hx => hyes e he.1 (ht.2 ⟨?_, hx⟩), fun hx => hno e he.1 (fun hy => hx (ht.1 hy).2)⟩
    exact hx.imp And.left And.left
  · have ht := (told_signals ⟨pidsOf l, tidsOf l, ps, v⟩ hp hne1 hne2 e).2 he
    rw [← hl] at ht
    rw [mix_tids, ← asking_filter ps .TkillSelf (.inr rfl), ← hmem] at ht
    rw [hl] at ht
    rw [single_enter _ _ _ hdec rfl]
    refine ⟨fun hx => hyes e he.1 (ht.2 ⟨?_, hx⟩), fun hx => hno e he.1 (fun hy => hx (ht.1 hy).2)⟩
    exact hx.imp And.left And.left
  · obtain ⟨prog, hprog, _, _, hok, _⟩ := C64_executed b env t ps v [] (by rw [HasPledged, ht]; rfl) (enter_free t ht _)
    rw [hok h1 h2 hsz, single_enter _ _ _ hdec rfl]
    have : enter ({ t with nnp := true, filters := prog :: t.filters } : Thread) e = outcome (verdict ⟨t.pid, t.tid⟩ ps v.toU32 e) := by
      unfold enter
      rw [promisesToProg_eq] at hprog
      cases hprog
      rw [show ({ t with nnp := true, filters := progOf ⟨t.pid, t.tid⟩ ps v.toU32 :: t.filters } : Thread).filters =
        [progOf ⟨t.pid, t.tid⟩ ps v.toU32] by simp [ht], outcome_single]
      unfold cur
      rw [run_progOf]
      rfl
    rw [this]
    congr 1
    unfold Told.verdict verdict
    by_cases harch : e.arch = X86_64
    · have hids : ∀ i j : Ids, Allowed i ps e → Allowed j ps e := by
        intro i j hi
        have h := C69_ids_matter_for_signals ⟨false⟩ ⟨false⟩ i j ps .KillProcess e ⟨he1, he2⟩
        rw [filterVerdict_eq, filterVerdict_eq, verdict_allowed harch hi] at h
        apply Classical.byContradiction
        intro hj
        rw [verdict_denied harch hj] at h
        revert h
        decide
      have : (Told.mk (pidsOf l) (tidsOf l) ps v).Allows e ↔ Allowed ⟨t.pid, t.tid⟩ ps e := by
        constructor
        · rintro ⟨x, y, _, hxy⟩
          exact hids _ _ hxy
        · intro hx
          by_cases hs : .StdIO ∈ ps
          · obtain ⟨x, hx1⟩ := List.exists_mem_of_ne_nil _ (hne1 hs)
            obtain ⟨y, hy1⟩ := List.exists_mem_of_ne_nil _ (hne2 hs)
            exact ⟨x, y, fun _ => ⟨hx1, hy1⟩, hids _ _ hx⟩
          · exact ⟨t.pid, t.tid, fun h => absurd h hs, hx⟩
      have hn : ¬ e.arch ≠ X86_64 := fun h => h harch
      rw [if_neg hn, if_neg hn]
      by_cases hA : Allowed ⟨t.pid, t.tid⟩ ps e
      · rw [if_pos (this.2 hA), if_pos hA]
      · rw [if_neg (fun h => hA (this.1 h)), if_neg hA]
    · rw [if_pos harch, if_pos harch]

/-- Not vacuous: StdIO is pledged, and the fork falls between the rule for kill and the rule for tkill. The child may send signals to its
parent and not to itself, and its thread may be sent signals by tkill. -/
example (d : SeccompData) : ∃ ms c line, ((quiet [thread0]).run ms)[1]? = some ⟨c, [], line⟩ ∧ c.pid = 101 ∧ c.tid = 102 ∧
    enter c (mkCall 62 [100, 9]) = .executed ∧ enter c (mkCall 62 [101, 9]) = .killProcess ∧ enter c (mkCall 200 [102, 9]) = .executed := by
  have hb : .KillSelf ∈ untilKill := by decide +kernel
  have hr : .KillSelf ∉ afterKill := by decide +kernel
  have hr' : .TkillSelf ∈ afterKill := by decide +kernel
  obtain ⟨c, h1, h2, h3, _, _, h4, h5, _⟩ := C85_every_fork (quiet [thread0]) 0 thread0 [] [⟨100, 100⟩] rfl rfl rfl ⟨true⟩ calm rfl rfl
    (fun _ => ⟨0, fun _ => 0, 0⟩) [.StdIO] .KillProcess (by decide +kernel) untilKill afterKill (List.take_append_drop _ _) d none 101 102
  refine ⟨_, c, _, h1, h2, h3, (h4 (by simp) _ ⟨rfl, rfl⟩).1 (.inl ⟨hb, by decide⟩), ?_,
    (h5 (by simp) _ ⟨rfl, rfl⟩).1 (.inr ⟨hr', by decide⟩)⟩
  rw [(h4 (by simp) _ ⟨rfl, rfl⟩).2]
  · decide
  · rintro (⟨_, h⟩ | ⟨h, _⟩)
    · revert h; decide
    · exact hr h

end Props
