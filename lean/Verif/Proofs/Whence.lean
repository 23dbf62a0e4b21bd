import Verif.Spec.Whence
import Verif.Proofs.Table
import Verif.Props.Full

/-!
# What one happening does to filters and calls
-/
set_option autoImplicit false

namespace Spec
open Pledge Bpfvm Kernel Props

/-- The promises and violations of the calls a thread is in. -/
def callsOf (w : Hand) : List (List Promise × SeccompReturn) := w.errands.map fun e => (e.act.ps, e.act.v)

theorem next_tag (a a' : Act) (t t' : Thread) (h : a.next t = (t', .inl a')) : a'.ps = a.ps ∧ a'.v = a.v := by
  unfold Act.next at h
  dsimp only at h
  repeat' split at h
  all_goals simp only [Prod.mk.injEq, reduceCtorEq, and_false, Sum.inl.injEq] at h
  all_goals obtain ⟨_, rfl⟩ := h; exact ⟨rfl, rfl⟩

/-- Nothing but the thread states changes, and their filters do not. -/
def Still (c c' : World) : Prop :=
  ∀ (k : Nat) w', c'.hands[k]? = some w' → ∃ w, c.hands[k]? = some w ∧ w'.thread.filters = w.thread.filters ∧ w'.errands = w.errands

theorem still_withThreads (c : World) (s : System)
    (hs : ∀ (k : Nat) t', s[k]? = some t' → ∃ t, c.threads[k]? = some t ∧ t'.filters = t.filters) : Still c (c.withThreads s) := by
  intro k w' hw
  unfold World.withThreads at hw
  rw [List.getElem?_zipWith] at hw
  cases hc : c.hands[k]? with
  | none => rw [hc] at hw; cases hw
  | some w =>
    cases ht : s[k]? with
    | none => rw [hc, ht] at hw; cases hw
    | some t' =>
      rw [hc, ht] at hw
      cases hw
      obtain ⟨t, h1, h2⟩ := hs k t' ht
      unfold World.threads at h1
      rw [List.getElem?_map, hc] at h1
      cases h1
      exact ⟨w, rfl, h2, rfl⟩

theorem still_ends (c : World) (i : Nat) (w : Hand) (r : PledgeRes) :
    Still ⟨c.hands.set i { w with errands := w.errands.tail }, c.cells⟩ (c.ends i w r) := by
  unfold World.ends
  dsimp only
  split
  · refine still_withThreads _ _ fun k t' h => ?_
    obtain ⟨t, h1, h2, _⟩ := reap_get _ _ _ _ _ _ h
    exact ⟨t, h1, h2⟩
  · exact fun k w' h => ⟨w', h, rfl, rfl⟩

/-- What happening `m` does to thread `k`, which is `w'` afterwards. -/
inductive Fate (c : World) (m : Happening) (k : Nat) (w' : Hand) : Prop where
  /-- no new filter and no new call -/
  | same (w : Hand) (hk : c.hands[k]? = some w) (hf : w'.thread.filters = w.thread.filters) (hc : ∀ x ∈ callsOf w', x ∈ callsOf w)
  /-- a new call -/
  | called (b : Build) (env : Env) (q : Nat → Query) (seed : Seed) (ps : List Promise) (v : SeccompReturn) (w : Hand)
      (hm : m = .enter k b env q seed ps v) (hk : c.hands[k]? = some w) (hf : w'.thread.filters = w.thread.filters)
      (hc : ∀ x ∈ callsOf w', x = (ps, v) ∨ x ∈ callsOf w)
  /-- a step of the innermost call -/
  | went (w : Hand) (a : Errand) (rest : List Errand) (hm : m = .go k) (hk : c.hands[k]? = some w) (ha : w.thread.alive = true)
      (he : w.errands = a :: rest) (hf : w'.thread.filters = (a.act.next w.thread).1.filters)
      (hc : ∀ x ∈ callsOf w', x ∈ callsOf w) (hr : ∀ r, (a.act.next w.thread).2 = .inr r → w'.errands = rest)
  /-- a new thread -/
  | made (i : Nat) (w : Hand) (hm : (∃ d h pid tid, m = .fork i d h pid tid) ∨ (∃ d h tid, m = .clone i d h tid) ∨ ∃ d h, m = .exec i d h)
      (hk : k = c.hands.length) (hl : c.hands.length < (c.step m).hands.length) (hi : c.hands[i]? = some w)
      (hf : w'.thread.filters = w.thread.filters)
      (hc : ∀ x ∈ callsOf w', (∃ d h pid tid, m = .fork i d h pid tid) ∧ x ∈ callsOf w)

theorem Still.fate {c c' : World} {m : Happening} (h : Still c c') {k : Nat} {w' : Hand} (hk : c'.hands[k]? = some w') : Fate c m k w' := by
  obtain ⟨w, h1, h2, h3⟩ := h k w' hk
  exact .same w h1 h2 (by unfold callsOf; rw [h3]; exact fun _ h => h)

theorem step_fate (c : World) (m : Happening) (hno : ∀ i d h f p, m ≠ .other (.setSeccomp i d h f p)) (k : Nat) (w' : Hand)
    (hk : (c.step m).hands[k]? = some w') : Fate c m k w' := by
  have still : Still c c := fun k w h => ⟨w, h, rfl, rfl⟩
  have onStill : ∀ op, (∀ i b env ps v, op ≠ .pledge i b env ps v) → (∀ i d h pid tid, op ≠ .spawn i d h pid tid) →
      (∀ i d h f p, op ≠ .setSeccomp i d h f p) → Still c (c.withThreads (c.threads.step op)) := by
    intro op h1 h2 h3
    refine still_withThreads _ _ fun k t' h => ?_
    obtain ⟨t, h4, _, _, h5, _⟩ := op_same c.threads op h1 h2 h3 k t' h
    exact ⟨t, h4, h5⟩
  have callStill : ∀ i d h, Still c (c.withThreads (c.threads.step (.call i d h))) :=
    fun i d h => onStill _ (by simp) (by simp) (by simp)
  cases m with
  | enter i b env q seed ps v =>
    simp only [World.step] at hk
    cases hi : c.hands[i]? with
    | none => rw [hi] at hk; exact still.fate hk
    | some w =>
      rw [hi] at hk
      simp only at hk
      split at hk
      · rcases get_set hk with ⟨rfl, rfl⟩ | ⟨_, h⟩
        · refine .called b env q seed ps v w rfl hi rfl fun x hx => ?_
          simpa [callsOf] using hx
        · exact still.fate h
      · exact still.fate hk
  | go i =>
    simp only [World.step] at hk
    cases hi : c.hands[i]? with
    | none => rw [hi] at hk; exact still.fate hk
    | some w =>
      rw [hi] at hk
      simp only at hk
      cases he : w.errands with
      | nil => rw [he] at hk; exact still.fate hk
      | cons a rest =>
        rw [he] at hk
        simp only at hk
        split at hk
        · rename_i ha
          have sub : ∀ {w1 : Hand}, w1.errands = w.errands.tail → ∀ x ∈ callsOf w1, x ∈ callsOf w := by
            intro w1 h1 x hx
            unfold callsOf at hx ⊢
            rw [h1, he] at hx
            rw [he]
            exact List.mem_cons_of_mem _ hx
          have put : ∀ (w1 : Hand) cells, w1.thread.filters = w.thread.filters → (∀ x ∈ callsOf w1, x ∈ callsOf w) →
              ((⟨c.hands.set i w1, cells⟩ : World).hands[k]? = some w') → Fate c (.go i) k w' := by
            intro w1 cells h1 h2 h
            rcases get_set h with ⟨rfl, rfl⟩ | ⟨_, h⟩
            · exact .same w hi h1 h2
            · exact still.fate h
          have over : ∀ (c1 : World) r, c1.hands = c.hands → ((c1.ends i w r).hands[k]? = some w') → Fate c (.go i) k w' := by
            intro c1 r hc1 h
            obtain ⟨u, h1, h2, h3⟩ := still_ends c1 i w r k w' h
            rw [hc1] at h1
            rcases get_set h1 with ⟨rfl, rfl⟩ | ⟨_, h⟩
            · exact .same w hi h2 (sub h3)
            · exact .same u h h2 (by unfold callsOf; rw [h3]; exact fun _ h => h)
          have tagged : ∀ (w1 : Hand) (f : Errand), f.act.ps = a.act.ps → f.act.v = a.act.v → w1.errands = w.errands →
              ∀ x ∈ callsOf (w1.with f), x ∈ callsOf w := by
            intro w1 f h1 h2 h3 x hx
            unfold callsOf Hand.with at hx
            unfold callsOf
            simp only [h3, he, List.tail_cons, List.map_cons, h1, h2] at hx ⊢
            exact hx
          unfold World.advance at hk
          cases hs : a.site with
          | table =>
            simp only [hs] at hk
            split at hk
            · exact put (w.with { a with site := .rest }) _ rfl (tagged w _ rfl rfl rfl) hk
            · exact put (w.with { a with site := .init }) _ rfl (tagged w _ rfl rfl rfl) hk
            · exact over c _ rfl hk
            · exact still.fate hk
          | init =>
            simp only [hs] at hk
            split at hk
            · exact put (w.with { a with site := .rest }) _ rfl (tagged w _ rfl rfl rfl) hk
            · split at hk
              · exact put ({ w with keys := true }.with { a with site := .rest }) _ rfl (tagged { w with keys := true } _ rfl rfl rfl) hk
              · exact over { c with cells := c.cells.set w.mem .poisoned } _ rfl hk
              · exact over c _ rfl hk
          | rest =>
            simp only [hs] at hk
            split at hk
            · split at hk
              · exact put { w with keys := true } _ rfl (fun _ h => h) hk
              · exact over c _ rfl hk
            · cases hn : a.act.next w.thread with
              | mk t r =>
                rw [hn] at hk
                cases r with
                | inl a' =>
                  simp only at hk
                  obtain ⟨h1, h2⟩ := next_tag _ _ _ _ hn
                  rcases get_set hk with ⟨rfl, rfl⟩ | ⟨_, h⟩
                  · exact .went w a rest rfl hi ha he (by rw [hn]; rfl)
                      (tagged { w with thread := t } { a with act := a', site := .rest } h1 h2 rfl) (fun r h => by rw [hn] at h; cases h)
                  · exact still.fate h
                | inr r =>
                  simp only at hk
                  obtain ⟨u, h1, h2, h3⟩ := still_ends c i { w with thread := t } r k w' hk
                  rcases get_set h1 with ⟨rfl, rfl⟩ | ⟨_, h⟩
                  · exact .went w a rest rfl hi ha he (by rw [hn]; exact h2) (sub h3) (fun _ _ => by rw [h3]; simp [he])
                  · exact .same u h h2 (by unfold callsOf; rw [h3]; exact fun _ h => h)
        · exact still.fate hk
  | leave i =>
    simp only [World.step] at hk
    cases hi : c.hands[i]? with
    | none => rw [hi] at hk; exact still.fate hk
    | some w =>
      rw [hi] at hk
      simp only at hk
      split at hk
      · rcases get_set hk with ⟨rfl, rfl⟩ | ⟨_, h⟩
        · refine .same w hi rfl fun x hx => ?_
          simp only [callsOf, List.mem_map] at hx ⊢
          obtain ⟨e, h1, h2⟩ := hx
          exact ⟨e, List.mem_of_mem_tail h1, h2⟩
        · exact still.fate h
      · exact still.fate hk
  | fork i d h pid tid =>
    have hstep := hk
    simp only [World.step] at hk
    cases hi : c.hands[i]? with
    | none => rw [hi] at hk; exact still.fate hk
    | some w =>
      rw [hi] at hk
      simp only at hk
      split at hk
      · rename_i hx
        by_cases hlt : k < c.hands.length
        · simp only [List.getElem?_append_left hlt] at hk
          exact still.fate hk
        · simp only [List.getElem?_append_right (Nat.le_of_not_lt hlt), List.getElem?_singleton] at hk
          split at hk
          · cases hk
            exact .made i w (.inl ⟨d, h, pid, tid, rfl⟩) (by omega) (by simp [World.step, hi, hx]) hi rfl (fun _ hx => ⟨⟨d, h, pid, tid, rfl⟩, hx⟩)
          · cases hk
      · exact (callStill i d h).fate hk
  | clone i d h tid =>
    simp only [World.step] at hk
    cases hi : c.hands[i]? with
    | none => rw [hi] at hk; exact still.fate hk
    | some w =>
      rw [hi] at hk
      simp only at hk
      split at hk
      · rename_i hx
        by_cases hlt : k < c.hands.length
        · simp only [List.getElem?_append_left hlt] at hk
          exact still.fate hk
        · simp only [List.getElem?_append_right (Nat.le_of_not_lt hlt), List.getElem?_singleton] at hk
          split at hk
          · cases hk
            exact .made i w (.inr (.inl ⟨d, h, tid, rfl⟩)) (by omega) (by simp [World.step, hi, hx]) hi rfl (fun _ h => by cases h)
          · cases hk
      · exact (callStill i d h).fate hk
  | exec i d h =>
    simp only [World.step] at hk
    cases hi : c.hands[i]? with
    | none => rw [hi] at hk; exact still.fate hk
    | some w =>
      rw [hi] at hk
      simp only at hk
      split at hk
      · rename_i hx
        by_cases hlt : k < c.hands.length
        · rw [List.getElem?_append_left (by simpa using hlt), List.getElem?_map] at hk
          cases hc : c.hands[k]? with
          | none => rw [hc] at hk; cases hk
          | some u =>
            rw [hc] at hk
            simp only [Option.map_some, Option.some.injEq] at hk
            subst hk
            refine .same u hc ?_ ?_
            · split <;> rfl
            · unfold callsOf
              split <;> exact fun _ h => h
        · simp only [List.getElem?_append_right (show (c.hands.map _).length ≤ k by simpa using hlt), List.getElem?_singleton, List.length_map] at hk
          split at hk
          · cases hk
            exact .made i w (.inr (.inr ⟨d, h, rfl⟩)) (by omega) (by simp [World.step, hi, hx]) hi rfl (fun _ h => by cases h)
          · cases hk
      · exact (callStill i d h).fate hk
  | other op =>
    cases op with
    | pledge => exact still.fate hk
    | spawn => exact still.fate hk
    | setSeccomp i d h f p => exact absurd rfl (hno i d h f p)
    | call i d h => exact (callStill i d h).fate hk
    | setNnp i d h f => exact (onStill (.setNnp i d h f) (by simp) (by simp) (by simp)).fate hk
    | cred i a => exact (onStill (.cred i a) (by simp) (by simp) (by simp)).fate hk
    | crash i w => exact (onStill (.crash i w) (by simp) (by simp) (by simp)).fate hk

/-! ## descendants -/

theorem kin_own (hs : List Happening) : ∀ (c : World) (own : List Nat), ∀ k ∈ own, k ∈ kin c hs own := by
  induction hs with
  | nil => exact fun _ _ _ h => h
  | cons m hs ih =>
    intro c own k hk
    cases m <;> simp only [kin] <;> apply ih <;> first | exact hk | (split <;> simp [hk])

theorem kin_append (hs hs' : List Happening) : ∀ (c : World) (own : List Nat),
    kin c (hs ++ hs') own = kin (c.run hs) hs' (kin c hs own) := by
  induction hs with
  | nil => exact fun _ _ => rfl
  | cons m hs ih => intro c own; cases m <;> simp only [List.cons_append, kin, ih] <;> rfl

theorem kin_mono (hs : List Happening) : ∀ (c : World) (own own' : List Nat), (∀ x ∈ own, x ∈ own') → ∀ k ∈ kin c hs own, k ∈ kin c hs own' := by
  induction hs with
  | nil => exact fun _ _ _ h => h
  | cons m hs ih =>
    intro c own own' h
    have key : ∀ i n, ∀ x ∈ (if i ∈ own ∧ c.hands.length < n then c.hands.length :: own else own),
        x ∈ (if i ∈ own' ∧ c.hands.length < n then c.hands.length :: own' else own') := by
      intro i n x hx
      split at hx
      · rename_i hc
        rw [if_pos ⟨h _ hc.1, hc.2⟩]
        simp only [List.mem_cons] at hx ⊢
        exact hx.imp id (h x)
      · split
        · exact List.mem_cons_of_mem _ (h x hx)
        · exact h x hx
    cases m <;> simp only [kin] <;> first | exact ih _ _ _ h | exact ih _ _ _ (key _ _)

theorem world_append (c : World) (hs hs' : List Happening) : c.run (hs ++ hs') = (c.run hs).run hs' := by
  unfold World.run; rw [List.foldl_append]

/-- A new thread is a descendant of those its maker descends from. -/
theorem kin_made {c : World} {m : Happening} {i : Nat} {own : List Nat}
    (hm : (∃ d h pid tid, m = .fork i d h pid tid) ∨ (∃ d h tid, m = .clone i d h tid) ∨ ∃ d h, m = .exec i d h) (hi : i ∈ own)
    (hl : c.hands.length < (c.step m).hands.length) : c.hands.length ∈ kin c [m] own := by
  rcases hm with ⟨d, h, pid, tid, rfl⟩ | ⟨d, h, tid, rfl⟩ | ⟨d, h, rfl⟩ <;> simp only [kin] <;> rw [if_pos ⟨hi, hl⟩] <;> simp

theorem forked_own (hs : List Happening) : ∀ (c : World) (own : List Nat), ∀ k ∈ own, k ∈ forked c hs own := by
  induction hs with
  | nil => exact fun _ _ _ h => h
  | cons m hs ih =>
    intro c own k hk
    cases m <;> simp only [forked] <;> apply ih <;> first | exact hk | (split <;> simp [hk])

theorem forked_append (hs hs' : List Happening) : ∀ (c : World) (own : List Nat),
    forked c (hs ++ hs') own = forked (c.run hs) hs' (forked c hs own) := by
  induction hs with
  | nil => exact fun _ _ => rfl
  | cons m hs ih => intro c own; cases m <;> simp only [List.cons_append, forked, ih] <;> rfl

theorem forked_kin (hs : List Happening) : ∀ (c : World) (own : List Nat), ∀ k ∈ forked c hs own, k ∈ kin c hs own := by
  induction hs with
  | nil => exact fun _ _ _ h => h
  | cons m hs ih =>
    intro c own k hk
    cases m <;> simp only [forked] at hk <;> simp only [kin]
    case clone => exact kin_mono _ _ own _ (fun x hx => by split <;> simp [hx]) k (ih _ _ k hk)
    case exec => exact kin_mono _ _ own _ (fun x hx => by split <;> simp [hx]) k (ih _ _ k hk)
    all_goals exact ih _ _ k hk

theorem CalledBy.more {c : World} {hs : List Happening} {k : Nat} {ps : List Promise} {v : SeccompReturn} (h : CalledBy c hs k ps v)
    (more : List Happening) : CalledBy c (hs ++ more) k ps v := by
  obtain ⟨i, b, env, q, seed, before, after, rfl, h2⟩ := h
  refine ⟨i, b, env, q, seed, before, after ++ more, by simp, ?_⟩
  rw [forked_append]
  exact forked_own _ _ _ _ h2

theorem CalledBy.child {c : World} {hs : List Happening} {i : Nat} {ps : List Promise} {v : SeccompReturn} (h : CalledBy c hs i ps v)
    {m : Happening} (hm : ∃ d h pid tid, m = .fork i d h pid tid)
    (hl : (c.run hs).hands.length < ((c.run hs).step m).hands.length) : CalledBy c (hs ++ [m]) (c.run hs).hands.length ps v := by
  obtain ⟨j, b, env, q, seed, before, after, hb, h2⟩ := h
  refine ⟨j, b, env, q, seed, before, after ++ [m], by rw [hb]; simp, ?_⟩
  have hr : c.run hs = (c.run (before ++ [.enter j b env q seed ps v])).run after := by
    rw [hb, ← world_append]; simp
  rw [forked_append, ← hr]
  obtain ⟨d, h, pid, tid, rfl⟩ := hm
  simp only [forked]
  rw [if_pos ⟨h2, hl⟩]; simp

theorem PutBy.more {c : World} {hs : List Happening} {k : Nat} {f : Prog} {older : List Prog} {p : Told} (h : PutBy c hs k f older p)
    (more : List Happening) : PutBy c (hs ++ more) k f older p := by
  obtain ⟨before, after, j, u, u', a, rest, rfl, h1, h2, h3, h4, h5, h6, h7, h8, h9, h10, h11, h12⟩ := h
  refine ⟨before, after ++ more, j, u, u', a, rest, by simp, h1, h2, h3, h4, h5, h6, h7, h8, h9, h10, ?_, h12⟩
  rw [kin_append]
  exact kin_own _ _ _ _ h11

theorem PutBy.child {c : World} {hs : List Happening} {i : Nat} {f : Prog} {older : List Prog} {p : Told} (h : PutBy c hs i f older p)
    {m : Happening} (hm : (∃ d h pid tid, m = .fork i d h pid tid) ∨ (∃ d h tid, m = .clone i d h tid) ∨ ∃ d h, m = .exec i d h)
    (hl : (c.run hs).hands.length < ((c.run hs).step m).hands.length) : PutBy c (hs ++ [m]) (c.run hs).hands.length f older p := by
  obtain ⟨before, after, j, u, u', a, rest, hb, h1, h2, h3, h4, h5, h6, h7, h8, h9, h10, h11, h12⟩ := h
  refine ⟨before, after ++ [m], j, u, u', a, rest, by rw [hb]; simp, h1, h2, h3, h4, h5, h6, h7, h8, h9, h10, ?_, h12⟩
  have hr : c.run hs = ((c.run before).step (.go j)).run after := by
    rw [hb, world_append]; rfl
  rw [kin_append, ← hr]
  exact kin_made hm h11 hl

end Spec
