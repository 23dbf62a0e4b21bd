import Verif.Spec.Full
import Verif.Proofs.Linear

/-!
# `Model/Full` refines `Model/Signals`
-/
set_option autoImplicit false

namespace Spec
open Pledge Bpfvm Kernel

/-- A thread without memory, keys and sites. -/
def busyOf (w : Hand) : Busy := ⟨w.thread, w.errands.map Errand.act, w.line⟩

/-- The same for all threads. -/
def wildOf (c : World) : Wild := c.hands.map busyOf

theorem wildOf_get (c : World) (i : Nat) : (wildOf c)[i]? = (c.hands[i]?).map busyOf := by simp [wildOf]

theorem wildOf_threads (c : World) : (wildOf c).threads = c.threads := by
  simp [wildOf, Wild.threads, World.threads, Function.comp_def, busyOf]

theorem zip_busy (l : List Hand) (s : System) :
    (List.zipWith (fun (w : Hand) t => ({ w with thread := t } : Hand)) l s).map busyOf =
    List.zipWith (fun (sl : Busy) t => ({ sl with thread := t } : Busy)) (l.map busyOf) s := by
  induction l generalizing s with
  | nil => simp
  | cons a l ih =>
    cases s with
    | nil => simp
    | cons t s =>
      simp only [List.zipWith_cons_cons, List.map_cons, ih]
      rfl

theorem wildOf_with (c : World) (s : System) : wildOf (c.withThreads s) = (wildOf c).withThreads s := zip_busy c.hands s

theorem wildOf_set (c : World) (i : Nat) (w : Hand) (cells : List Cell) :
    wildOf ⟨c.hands.set i w, cells⟩ = (wildOf c).set i (busyOf w) := by
  simp only [wildOf, List.map_set]

theorem set_there {α : Type} {l : List α} {i : Nat} {a : α} (h : l[i]? = some a) : l.set i a = l := by
  apply List.ext_getElem?
  intro k
  rw [List.getElem?_set]
  split
  · rename_i hk
    subst hk
    rw [h]
    split
    · rfl
    · rename_i hn
      rw [List.getElem?_eq_none (by omega)] at h
      exact h
  · rfl

/-- Moves that a happening stands for. -/
def Derived : Happening → Move → Prop
  | .enter i b env q _ ps v, x => x = .enter i b env q ps v
  | .go i, x => x = .go i ∨ x = .leave i ∨ ∃ k whole, x = .other (.crash k whole)
  | .leave i, x => x = .leave i
  | .fork i d h pid tid, x => x = .fork i d h pid tid true
  | .clone i d h tid, x => ∃ pid, x = .fork i d h pid tid false
  | .exec i d h, x => (∃ pid, x = .fork i d h pid pid false) ∨ ∃ k whole, x = .other (.crash k whole)
  | .other op, x => x = .other op

theorem crash_step (w : Wild) (i : Nat) (sl : Busy) (hi : w[i]? = some sl) (ha : sl.thread.alive = true) (o : Outcome) :
    w.step (.other (.crash i (decide (o ≠ .killThread)))) = w.withThreads (reap w.threads i sl.thread.pid o) := by
  have hg : w.threads[i]? = some sl.thread := by simp [Wild.threads, hi]
  simp only [Wild.step, System.step, System.on, hg, ha, if_true]
  rw [set_there hg]
  by_cases h : o = .killThread
  · subst h
    simp
  · simp only [h, not_false_eq_true, decide_true, if_true, ne_eq]
    congr 1
    unfold reap
    cases o <;> first | rfl | exact absurd rfl h

/-- The end of a call as moves: the thread leaves it and may die. -/
theorem ends_moves (c : World) (i : Nat) (w : Hand) (hi : c.hands[i]? = some w) (ha : w.thread.alive = true) (r : PledgeRes) :
    ∃ ms, (wildOf c).run ms = wildOf (c.ends i w r) ∧ (∀ x ∈ ms, Derived (.go i) x) ∧ ends (wildOf c) ms = [] := by
  have hg : (wildOf c)[i]? = some (busyOf w) := by rw [wildOf_get, hi]; rfl
  have h1 : (wildOf c).step (.leave i) = wildOf { c with hands := c.hands.set i { w with errands := w.errands.tail } } := by
    rw [wildOf_set]
    simp only [Wild.step, hg]
    simp only [busyOf, ha, if_true, List.map_tail]
  have hlt : i < c.hands.length := (List.getElem?_eq_some_iff.1 hi).1
  cases hd : r.death with
  | none =>
    refine ⟨[.leave i], ?_, by simp [Derived], rfl⟩
    simp only [Wild.run, List.foldl_cons, List.foldl_nil, h1]
    simp only [World.ends, hd]
  | some o =>
    refine ⟨[.leave i, .other (.crash i (decide (o ≠ .killThread)))], ?_, ?_, rfl⟩
    rotate_left
    · intro x hx
      rcases List.mem_cons.1 hx with rfl | hx
      · exact .inr (.inl rfl)
      · rw [List.mem_singleton.1 hx]
        exact .inr (.inr ⟨_, _, rfl⟩)
    simp only [Wild.run, List.foldl_cons, List.foldl_nil, h1]
    rw [crash_step _ i (busyOf { w with errands := w.errands.tail }) (by rw [wildOf_get]; simp [hlt]) ha o]
    simp only [World.ends, hd, wildOf_with, wildOf_threads]
    rfl

theorem ends_cells (c : World) (cells : List Cell) (i : Nat) (w : Hand) (r : PledgeRes) :
    wildOf (({ c with cells := cells } : World).ends i w r) = wildOf (c.ends i w r) := by
  unfold World.ends
  cases r.death with
  | none => simp only [wildOf]
  | some o => simp only [wildOf, World.withThreads, World.threads]

theorem next_pid (a : Act) (t : Thread) : (a.next t).1.pid = t.pid := by
  have sys : ∀ h d body, (∀ u : Thread, (body u).1.pid = u.pid) → (syscall h t d body).1.pid = t.pid := by
    intro h d body hb
    unfold syscall
    split
    · exact hb t
    · rfl
    · split <;> rfl
    · rfl
  unfold Act.next
  split
  · split <;> rfl
  · split <;> rfl
  · split
    · rfl
    · rfl
    · split
      · rfl
      · rfl
      · dsimp only
        split <;> (apply sys; intro u; unfold setNnp; split <;> rfl)
  · dsimp only
    split <;>
    · apply sys
      intro u
      unfold setSeccomp
      split
      · rfl
      · split
        · rfl
        · split
          · rfl
          · split <;> rfl

/-- A step of a call as moves. -/
theorem go_moves (c : World) (i : Nat) (w : Hand) (f : Errand) (rest : List Errand) (hi : c.hands[i]? = some w)
    (hf : w.errands = f :: rest) (ha : w.thread.alive = true) :
    ∃ ms, (wildOf c).run ms = wildOf (c.advance i w f) ∧ (∀ x ∈ ms, Derived (.go i) x) ∧
      okEnds (ends (wildOf c) ms) = okOf c (.go i) := by
  have hg : (wildOf c)[i]? = some (busyOf w) := by rw [wildOf_get, hi]; rfl
  have htail : w.errands.tail = rest := by rw [hf]; rfl
  have stay : ∀ (k : Bool) (s : Site) (cells : List Cell),
      wildOf ⟨c.hands.set i ({ w with keys := k }.with { f with site := s }), cells⟩ = wildOf c := by
    intro k s cells
    rw [wildOf_set]
    have : busyOf ({ w with keys := k }.with { f with site := s }) = busyOf w := by
      simp only [busyOf, Hand.with, hf, List.map_cons, List.tail_cons]
    rw [this]
    exact set_there hg
  have stay' : ∀ (s : Site) (cells : List Cell), wildOf ⟨c.hands.set i (w.with { f with site := s }), cells⟩ = wildOf c :=
    fun s cells => stay w.keys s cells
  have nil : okOf c (.go i) = [] → ∀ c' : World, wildOf c' = wildOf c →
      ∃ ms, (wildOf c).run ms = wildOf c' ∧ (∀ x ∈ ms, Derived (.go i) x) ∧ okEnds (ends (wildOf c) ms) = okOf c (.go i) :=
    fun h c' e => ⟨[], e.symm, by simp, by rw [h]; rfl⟩
  have over : okOf c (.go i) = [] → ∀ r,
      ∃ ms, (wildOf c).run ms = wildOf (c.ends i w r) ∧ (∀ x ∈ ms, Derived (.go i) x) ∧ okEnds (ends (wildOf c) ms) = okOf c (.go i) := by
    intro h r
    obtain ⟨ms, h1, h2, h3⟩ := ends_moves c i w hi ha r
    exact ⟨ms, h1, h2, by rw [h, h3]; rfl⟩
  have okn : f.site ≠ .rest → okOf c (.go i) = [] := by
    intro h
    simp only [okOf, hi, hf, h, false_and, and_false, if_false]
  unfold World.advance
  cases hs : f.site with
  | table =>
    have hok := okn (by rw [hs]; simp)
    simp only
    split
    · exact nil hok _ (stay' _ _)
    · exact nil hok _ (stay' _ _)
    · exact over hok _
    · exact nil hok _ rfl
  | init =>
    have hok := okn (by rw [hs]; simp)
    simp only
    split
    · exact nil hok _ (stay' _ _)
    · split
      · exact nil hok _ (stay _ _ _)
      · rw [ends_cells]
        exact over hok _
      · exact over hok _
  | rest =>
    simp only
    by_cases hk : f.act.assembles = true ∧ w.keys = false
    · have hok : okOf c (.go i) = [] := by
        simp only [okOf, hi, hf, hk, and_self, not_true, and_false, if_false]
      rw [if_pos (by simp [hk])]
      split
      · refine nil hok _ ?_
        rw [wildOf_set]
        exact set_there hg
      · exact over hok _
    · rw [if_neg (by simpa using hk)]
      refine ⟨[.go i], ?_, by simp [Derived], ?_⟩
      · simp only [Wild.run, List.foldl_cons, List.foldl_nil, Wild.step, hg]
        simp only [busyOf, hf, List.map_cons]
        simp only [ha, if_true]
        cases hn : f.act.next w.thread with
        | mk t res =>
          cases res with
          | inl a =>
            simp only
            rw [wildOf_set]
            simp only [busyOf, Hand.with, List.map_cons]
            rfl
          | inr r =>
            have hset : ∀ cells, wildOf ⟨c.hands.set i ({ w with thread := t, errands := (f :: rest).tail } : Hand), cells⟩ =
                (wildOf c).set i ⟨t, rest.map Errand.act, w.line⟩ := by
              intro cells
              rw [wildOf_set]
              simp only [busyOf, List.tail_cons]
            have hpid : t.pid = w.thread.pid := by
              have := next_pid f.act w.thread
              rw [hn] at this
              exact this
            simp only [World.ends]
            cases hd : r.death with
            | none =>
              simp only
              rw [hset]
            | some o =>
              simp only
              rw [wildOf_with, hset, ← wildOf_threads, hset, hpid]
      · simp only [ends, endOf, hg, okOf, hi, hf]
        simp only [busyOf, hf, List.map_cons]
        simp only [ha, hs, hk, not_false_eq_true, and_self, if_true, List.append_nil]
        cases (f.act.next w.thread).2 with
        | inl a => rfl
        | inr r => cases r <;> rfl

/-- Several threads end. -/
theorem crashes_moves (L : List Nat) : ∀ w : Wild,
    w.run (L.map fun k => .other (.crash k false)) =
      w.mapIdx (fun k sl => if k ∈ L then { sl with thread := { sl.thread with alive := false } } else sl) ∧
    ends w (L.map fun k => .other (.crash k false)) = [] := by
  induction L with
  | nil =>
    intro w
    refine ⟨?_, rfl⟩
    apply List.ext_getElem?
    intro k
    simp [Wild.run]
  | cons i L ih =>
    intro w
    have one : w.step (.other (.crash i false)) =
        w.mapIdx (fun k sl => if k = i then { sl with thread := { sl.thread with alive := false } } else sl) := by
      apply List.ext_getElem?
      intro k
      rw [List.getElem?_mapIdx]
      cases hi : w[i]? with
      | none =>
        have hg : w.threads[i]? = none := by simp [Wild.threads, hi]
        simp only [Wild.step, System.step, System.on, hg]
        rw [show w.withThreads w.threads = w from by
          apply List.ext_getElem?
          intro k
          simp only [Wild.withThreads, Wild.threads, List.getElem?_zipWith, List.getElem?_map]
          cases w[k]? <;> rfl]
        by_cases hk : k = i
        · subst hk; rw [hi]; rfl
        · simp [hk]
      | some sl =>
        have hg : w.threads[i]? = some sl.thread := by simp [Wild.threads, hi]
        simp only [Wild.step, System.step, System.on, hg]
        split
        · rw [set_there hg]
          simp only [reap, Wild.withThreads, Wild.threads, List.getElem?_zipWith, List.getElem?_modify, List.getElem?_map, Bool.false_eq_true,
            if_false]
          cases hk : w[k]? with
          | none => simp
          | some x =>
            by_cases hki : i = k
            · simp [hki]
            · simp [hki, Ne.symm hki]
        · rename_i hd
          simp only [Wild.withThreads, Wild.threads, List.getElem?_zipWith, List.getElem?_map]
          cases hk : w[k]? with
          | none => simp
          | some x =>
            by_cases hki : k = i
            · subst hki
              obtain rfl : x = sl := by rw [hk] at hi; exact Option.some.inj hi
              have hd' : x.thread.alive = false := by simpa using hd
              have : ({ x.thread with alive := false } : Thread) = x.thread := by rw [← hd']
              simp [this]
            · simp [hki]
    refine ⟨?_, ?_⟩
    · simp only [List.map_cons, Wild.run, List.foldl_cons]
      have := (ih (w.step (.other (.crash i false)))).1
      rw [Wild.run] at this
      rw [this, one]
      apply List.ext_getElem?
      intro k
      simp only [List.getElem?_mapIdx, Option.map_map]
      congr 1
      funext sl
      simp only [Function.comp, List.mem_cons]
      by_cases h1 : k = i <;> by_cases h2 : k ∈ L <;> simp [h1, h2]
    · simp only [List.map_cons, ends, endOf, (ih _).2, List.nil_append]

/-- Every happening as moves. -/
theorem step_moves (c : World) (m : Happening) :
    ∃ ms, (wildOf c).run ms = wildOf (c.step m) ∧ (∀ x ∈ ms, Derived m x) ∧ okEnds (ends (wildOf c) ms) = okOf c m := by
  -- happenings that are one move
  have one : ∀ (m : Happening) (x : Move), (wildOf c).step x = wildOf (c.step m) → Derived m x → endOf (wildOf c) x = [] →
      okOf c m = [] →
      ∃ ms, (wildOf c).run ms = wildOf (c.step m) ∧ (∀ x ∈ ms, Derived m x) ∧ okEnds (ends (wildOf c) ms) = okOf c m := by
    intro m x h1 h2 h3 h4
    exact ⟨[x], h1, fun y hy => by rw [List.mem_singleton.1 hy]; exact h2, by simp only [ends, h3, h4]; rfl⟩
  cases m with
  | enter i b env q seed ps v =>
    refine one _ (.enter i b env q ps v) ?_ rfl rfl rfl
    simp only [Wild.step, World.step, wildOf_get]
    cases hi : c.hands[i]? with
    | none => rfl
    | some w =>
      simp only [Option.map_some, busyOf]
      split
      · rw [wildOf_set]; rfl
      · rfl
  | go i =>
    cases hi : c.hands[i]? with
    | none => exact ⟨[], by simp only [World.step, hi]; rfl, by simp, by simp only [okOf, hi]; rfl⟩
    | some w =>
      cases hf : w.errands with
      | nil => exact ⟨[], by simp only [World.step, hi, hf]; rfl, by simp, by simp only [okOf, hi, hf]; rfl⟩
      | cons f rest =>
        by_cases ha : w.thread.alive = true
        · have := go_moves c i w f rest hi hf ha
          simp only [World.step, hi, hf, ha, if_true]
          exact this
        · refine ⟨[], ?_, by simp, ?_⟩
          · simp only [World.step, hi, hf, ha]; rfl
          · simp only [okOf, hi, hf, ha]; rfl
  | leave i =>
    refine one _ (.leave i) ?_ rfl rfl rfl
    simp only [Wild.step, World.step, wildOf_get]
    cases hi : c.hands[i]? with
    | none => rfl
    | some w =>
      simp only [Option.map_some, busyOf]
      split
      · rw [wildOf_set]; simp only [busyOf, List.map_tail]
      · rfl
  | fork i d h pid tid =>
    refine one _ (.fork i d h pid tid true) ?_ rfl rfl rfl
    simp only [Wild.step, World.step, wildOf_get]
    cases hi : c.hands[i]? with
    | none => rfl
    | some w =>
      simp only [Option.map_some, busyOf]
      split
      · simp only [wildOf, List.map_append, List.map_cons, List.map_nil]; rfl
      · rw [wildOf_with, wildOf_threads]
  | clone i d h tid =>
    cases hi : c.hands[i]? with
    | none =>
      refine ⟨[], by simp only [World.step, hi]; rfl, by simp, rfl⟩
    | some w =>
      refine one _ (.fork i d h w.thread.pid tid false) ?_ ⟨_, rfl⟩ rfl rfl
      simp only [Wild.step, World.step, wildOf_get, hi]
      simp only [Option.map_some, busyOf]
      split
      · simp only [wildOf, List.map_append, List.map_cons, List.map_nil]; rfl
      · rw [wildOf_with, wildOf_threads]
  | exec i d h =>
    cases hi : c.hands[i]? with
    | none =>
      refine ⟨[], by simp only [World.step, hi]; rfl, by simp, rfl⟩
    | some w =>
      by_cases hx : w.thread.alive = true ∧ Kernel.enter w.thread d = .executed
      · -- the new thread, then the deaths
        let L := (List.range c.hands.length).filter fun k => (c.hands[k]?.map Hand.mem) = some w.mem
        refine ⟨.fork i d h w.thread.pid w.thread.pid false :: L.map fun k => .other (.crash k false), ?_, ?_, ?_⟩
        · show Wild.run ((wildOf c).step _) _ = _
          rw [(crashes_moves L _).1]
          simp only [Wild.step, World.step, wildOf_get, hi, hx, and_self, if_true]
          simp only [Option.map_some, busyOf, hx, and_self, if_true]
          apply List.ext_getElem?
          intro k
          simp only [List.getElem?_mapIdx, wildOf, List.map_append, List.map_map, List.map_cons, List.map_nil, List.getElem?_append,
            List.length_map, List.getElem?_map]
          by_cases hk : k < c.hands.length
          · simp only [hk, if_true, List.getElem?_eq_getElem hk, Option.map_some, Option.some.injEq]
            have : k ∈ L ↔ c.hands[k].mem = w.mem := by
              simp only [L, List.mem_filter, List.mem_range, hk, true_and, List.getElem?_eq_getElem hk, Option.map_some,
                Option.some.injEq, decide_eq_true_eq]
            simp only [this, Function.comp]
            split <;> rfl
          · simp only [hk, if_false]
            have : k ∉ L := fun h => hk (List.mem_range.1 (List.mem_filter.1 h).1)
            simp only [this, if_false, Option.map_id']
            rfl
        · intro x hx
          rcases List.mem_cons.1 hx with rfl | hx
          · exact .inl ⟨_, rfl⟩
          · obtain ⟨k, _, rfl⟩ := List.mem_map.1 hx
            exact .inr ⟨_, _, rfl⟩
        · simp only [ends, endOf, (crashes_moves L _).2, List.nil_append]
          rfl
      · refine one _ (.fork i d h w.thread.pid w.thread.pid false) ?_ (.inl ⟨_, rfl⟩) rfl rfl
        simp only [Wild.step, World.step, wildOf_get, hi]
        simp only [Option.map_some, busyOf, hx, if_false]
        rw [wildOf_with, wildOf_threads]
  | other op =>
    refine one _ (.other op) ?_ rfl rfl rfl
    cases op <;> simp only [Wild.step, World.step, wildOf_with, wildOf_threads]

theorem noFork_of (ms : List Move) : ∀ (w : Wild), (∀ i d h pid tid, .fork i d h pid tid true ∉ ms) → NoFork w ms := by
  induction ms with
  | nil => intro w _; trivial
  | cons m ms ih =>
    intro w h
    refine ⟨?_, ih _ fun i d h' pid tid hm => h i d h' pid tid (List.mem_cons_of_mem _ hm)⟩
    split
    · rename_i i d h' pid tid
      exact absurd (List.mem_cons_self ..) (h i d h' pid tid)
    · trivial

/-- Forks outside calls are forks outside calls. -/
theorem step_moves_outside (c : World) (m : Happening) :
    ∃ ms, (wildOf c).run ms = wildOf (c.step m) ∧ (∀ x ∈ ms, Derived m x) ∧ okEnds (ends (wildOf c) ms) = okOf c m ∧
      (ForksOutside c [m] → NoFork (wildOf c) ms) := by
  obtain ⟨ms, h1, h2, h3⟩ := step_moves c m
  cases m with
  | fork i d h pid tid =>
    refine ⟨[.fork i d h pid tid true], ?_, ?_, rfl, ?_⟩
    · simp only [Wild.run, List.foldl_cons, List.foldl_nil, Wild.step, World.step, wildOf_get]
      cases hi : c.hands[i]? with
      | none => rfl
      | some w =>
        simp only [Option.map_some, busyOf]
        split
        · simp only [wildOf, List.map_append, List.map_cons, List.map_nil]; rfl
        · rw [wildOf_with, wildOf_threads]
    · intro x hx
      exact List.mem_singleton.1 hx
    · intro hF
      refine ⟨?_, trivial⟩
      simp only
      intro sl hsl
      rw [wildOf_get] at hsl
      cases hi : c.hands[i]? with
      | none => rw [hi] at hsl; cases hsl
      | some w =>
        rw [hi] at hsl
        cases hsl
        have := hF.1 w hi
        simp only [busyOf, this, List.map_nil]
  | _ =>
    refine ⟨ms, h1, h2, h3, fun _ => noFork_of ms _ fun i d h pid tid hm => ?_⟩
    have := h2 _ hm
    simp [Derived] at this

theorem noFork_append (a b : List Move) : ∀ w : Wild, NoFork w a → NoFork (w.run a) b → NoFork w (a ++ b) := by
  induction a with
  | nil => intro w _ h; exact h
  | cons m a ih => intro w h1 h2; exact ⟨h1.1, ih _ h1.2 h2⟩

theorem ends_append (w : Wild) (a b : List Move) : ends w (a ++ b) = ends w a ++ ends (w.run a) b := by
  induction a generalizing w with
  | nil => rfl
  | cons m a ih =>
    simp only [List.cons_append, ends, ih, List.append_assoc]
    rfl

/-- Every run as moves. -/
theorem run_moves (hs : List Happening) : ∀ c : World,
    ∃ ms, (wildOf c).run ms = wildOf (c.run hs) ∧ (∀ x ∈ ms, ∃ m ∈ hs, Derived m x) ∧ okEnds (ends (wildOf c) ms) = oks c hs ∧
      (ForksOutside c hs → NoFork (wildOf c) ms) := by
  induction hs with
  | nil => exact fun c => ⟨[], rfl, by simp, rfl, fun _ => trivial⟩
  | cons m hs ih =>
    intro c
    obtain ⟨a, h1, h2, h3, h4⟩ := step_moves_outside c m
    obtain ⟨b, g1, g2, g3, g4⟩ := ih (c.step m)
    refine ⟨a ++ b, ?_, ?_, ?_, fun hF => noFork_append a b _ (h4 ⟨hF.1, trivial⟩) (by rw [h1]; exact g4 hF.2)⟩
    · rw [show (wildOf c).run (a ++ b) = ((wildOf c).run a).run b by simp [Wild.run], h1, g1]
      rfl
    · intro x hx
      rcases List.mem_append.1 hx with hx | hx
      · exact ⟨m, by simp, h2 x hx⟩
      · obtain ⟨m', hm, hd⟩ := g2 x hx
        exact ⟨m', List.mem_cons_of_mem _ hm, hd⟩
    · rw [ends_append, h1]
      simp only [okEnds, List.filterMap_append]
      simp only [okEnds] at h3 g3
      rw [h3, g3]
      rfl

/-! ## threads and their descendants -/

theorem own_scions (ms : List Move) : ∀ (w : Wild) (own : List Nat) (j : Nat), j ∈ own → j ∈ scions w ms own := by
  induction ms with
  | nil => intro w own j h; exact h
  | cons m ms ih =>
    intro w own j h
    simp only [scions]
    split
    · apply ih
      split
      · exact List.mem_cons_of_mem _ h
      · exact h
    · exact ih _ _ _ h

/-- A thread that was there only gets more filters. -/
theorem step_old {c : World} {m : Happening} {j : Nat} {w w' : Hand} (h : c.hands[j]? = some w) (h' : (c.step m).hands[j]? = some w') :
    Grown w.thread w'.thread := by
  obtain ⟨ms, h1, _, _⟩ := step_moves c m
  have := scions_grown ms (wildOf c) [j] w.thread (by
      intro i hi sl hsl
      rw [List.mem_singleton.1 hi, wildOf_get, h] at hsl
      cases hsl
      exact .refl _) (by
      intro i hi
      rw [List.mem_singleton.1 hi, wildOf, List.length_map]
      exact (List.getElem?_eq_some_iff.1 h).1) j (own_scions _ _ _ _ (by simp)) (busyOf w') (by rw [h1, wildOf_get, h']; rfl)
  exact this

theorem with_length (c : World) (s : System) (h : s.length = c.threads.length) : (c.withThreads s).hands.length = c.hands.length := by
  have : c.threads.length = c.hands.length := by simp [World.threads]
  simp only [World.withThreads, List.length_zipWith]
  omega

theorem on_len (s : System) (i : Nat) (f : Thread → Thread × Option Outcome) : (s.on i f).length = s.length := by
  unfold System.on
  split
  · split
    · split
      · unfold reap
        split <;> simp
      · simp
    · rfl
  · rfl

theorem ends_length (c : World) (i : Nat) (w : Hand) (r : PledgeRes) : (c.ends i w r).hands.length = c.hands.length := by
  unfold World.ends
  dsimp only
  split
  · rw [with_length]
    · simp
    · unfold reap
      split <;> simp
  · simp

theorem advance_length (c : World) (i : Nat) (w : Hand) (f : Errand) : (c.advance i w f).hands.length = c.hands.length := by
  unfold World.advance
  dsimp only
  split
  · split
    · simp
    · simp
    · exact ends_length ..
    · rfl
  · split
    · simp
    · split
      · simp
      · exact ends_length ..
      · exact ends_length ..
  · split
    · split
      · simp
      · exact ends_length ..
    · split
      · simp
      · exact ends_length ..

/-- A happening that makes a thread: it has the filters of its maker, and it is the last one. -/
theorem step_new (c : World) (m : Happening) :
    (c.step m).hands.length = c.hands.length ∨
    ∃ i w w', ((∃ d h pid tid, m = .fork i d h pid tid) ∨ (∃ d h tid, m = .clone i d h tid) ∨ ∃ d h, m = .exec i d h) ∧
      c.hands[i]? = some w ∧ (c.step m).hands.length = c.hands.length + 1 ∧ (c.step m).hands[c.hands.length]? = some w' ∧
      Grown w.thread w'.thread := by
  have call : ∀ i d h, (c.withThreads (c.threads.step (.call i d h))).hands.length = c.hands.length :=
    fun i d h => with_length c _ (on_len ..)
  cases m with
  | enter i b env q seed ps v =>
    left
    simp only [World.step]
    split
    · split
      · simp
      · rfl
    · rfl
  | go i =>
    left
    simp only [World.step]
    split
    · split
      · split
        · exact advance_length ..
        · rfl
      · rfl
    · rfl
  | leave i =>
    left
    simp only [World.step]
    split
    · split
      · simp
      · rfl
    · rfl
  | fork i d h pid tid =>
    simp only [World.step]
    cases hi : c.hands[i]? with
    | none => exact .inl rfl
    | some w =>
      simp only
      split
      · refine .inr ⟨i, w, _, .inl ⟨d, h, pid, tid, rfl⟩, hi, by simp, by rw [List.getElem?_append_right (by simp)]; simp; rfl, ?_⟩
        exact ⟨List.suffix_refl _, id⟩
      · exact .inl (call ..)
  | clone i d h tid =>
    simp only [World.step]
    cases hi : c.hands[i]? with
    | none => exact .inl rfl
    | some w =>
      simp only
      split
      · refine .inr ⟨i, w, _, .inr (.inl ⟨d, h, tid, rfl⟩), hi, by simp, by rw [List.getElem?_append_right (by simp)]; simp; rfl, ?_⟩
        exact ⟨List.suffix_refl _, id⟩
      · exact .inl (call ..)
  | exec i d h =>
    simp only [World.step]
    cases hi : c.hands[i]? with
    | none => exact .inl rfl
    | some w =>
      simp only
      split
      · refine .inr ⟨i, w, _, .inr (.inr ⟨d, h, rfl⟩), hi, by simp, by rw [List.getElem?_append_right (by simp)]; simp; rfl, ?_⟩
        exact ⟨List.suffix_refl _, id⟩
      · exact .inl (call ..)
  | other op =>
    left
    cases op with
    | pledge => rfl
    | spawn => rfl
    | _ => exact with_length c _ (by unfold System.step; exact on_len ..)

theorem kin_grown (hs : List Happening) : ∀ (c : World) (own : List Nat) (t : Thread),
    (∀ j ∈ own, ∀ w, c.hands[j]? = some w → Grown t w.thread) → (∀ j ∈ own, j < c.hands.length) →
    ∀ j ∈ kin c hs own, ∀ w, (c.run hs).hands[j]? = some w → Grown t w.thread := by
  induction hs with
  | nil => intro c own t h _; exact h
  | cons m hs ih =>
    intro c own t hown hlt
    have hrun : c.run (m :: hs) = (c.step m).run hs := rfl
    rw [hrun]
    have hlen : c.hands.length ≤ (c.step m).hands.length := by
      rcases step_new c m with h | ⟨_, _, _, _, _, h, _⟩ <;> omega
    have old : ∀ j ∈ own, ∀ w, (c.step m).hands[j]? = some w → Grown t w.thread := by
      intro j hj w hw
      have hl := hlt j hj
      exact (hown j hj _ (List.getElem?_eq_getElem hl)).trans (step_old (List.getElem?_eq_getElem hl) hw)
    have keep : ∀ j ∈ kin (c.step m) hs own, ∀ w, ((c.step m).run hs).hands[j]? = some w → Grown t w.thread :=
      ih (c.step m) own t old (fun j hj => Nat.lt_of_lt_of_le (hlt j hj) hlen)
    have more : ∀ i, ((∃ d h pid tid, m = .fork i d h pid tid) ∨ (∃ d h tid, m = .clone i d h tid) ∨ ∃ d h, m = .exec i d h) →
        ∀ j ∈ kin (c.step m) hs (if i ∈ own ∧ c.hands.length < (c.step m).hands.length then c.hands.length :: own else own),
        ∀ w, ((c.step m).run hs).hands[j]? = some w → Grown t w.thread := by
      intro i hm
      split
      · rename_i hc
        rcases step_new c m with h | ⟨i', w0, w', hm', hi, hl, hn, hg⟩
        · omega
        · have hii : i' = i := by
            rcases hm with ⟨_, _, _, _, rfl⟩ | ⟨_, _, _, rfl⟩ | ⟨_, _, rfl⟩ <;>
              rcases hm' with ⟨_, _, _, _, h⟩ | ⟨_, _, _, h⟩ | ⟨_, _, h⟩ <;> cases h <;> rfl
          subst hii
          refine ih (c.step m) _ t ?_ ?_
          · intro j hj w hw
            rcases List.mem_cons.1 hj with rfl | hj
            · rw [hn] at hw
              cases hw
              exact (hown i' hc.1 w0 hi).trans hg
            · exact old j hj w hw
          · intro j hj
            rcases List.mem_cons.1 hj with rfl | hj
            · omega
            · exact Nat.lt_of_lt_of_le (hlt j hj) hlen
      · exact keep
    cases m with
    | fork i d h pid tid => exact more i (.inl ⟨d, h, pid, tid, rfl⟩)
    | clone i d h tid => exact more i (.inr (.inl ⟨d, h, tid, rfl⟩))
    | exec i d h => exact more i (.inr (.inr ⟨d, h, rfl⟩))
    | enter => exact keep
    | go => exact keep
    | leave => exact keep
    | other => exact keep

end Spec
